import Verif.Lemmas.FormsNew
import Verif.Lemmas.Batch
import Verif.Lemmas.ExactRules
import Verif.Lemmas.RatOps
import Verif.Spec.Slices

/-! C38, C39: `check_bounds`. The first theorem of each pair is for every arithmetic, the exact
versions restate the flag condition with ordinary inequalities. -/

set_option autoImplicit false

namespace Interpn
open FloatOps

section LawFree
variable {T : Type} [FloatOps T] {N : Nat}

theorem boundsFlag_iff (lo hi atol : T) (obs : List T) : boundsFlag lo hi atol obs = true ↔
    ∃ x ∈ obs, ((x -. lo) <=. (-. atol)) = true ∨ (atol <=. (x -. hi)) = true := by
  simp [boundsFlag]

theorem checkBoundsRegularAxis_ok {dims : List Nat} {starts steps : List T} {obs : List (List T)}
    {atol s p m : T} {d i : Nat} {o : List T} (hs : starts[i]? = some s) (hp : steps[i]? = some p)
    (hd : dims[i]? = some d) (ho : obs[i]? = some o) (h1 : 1 ≤ d) (hm : ofUsize (d - 1) = some m) :
    checkBoundsRegularAxis dims starts steps obs atol i =
      .ok (boundsFlag (fmin s (s +. p *. m)) (fmax s (s +. p *. m)) atol o) := by
  unfold checkBoundsRegularAxis
  rw [lget_of_some hs, Res.ok_bind, lget_of_some hd, Res.ok_bind, usub_ok h1, Res.ok_bind]
  simp only [hm, lget_of_some hp, lget_of_some ho, Res.ok_bind, Res.pure_eq]

/-- Wrong number of observation slices or flags: an error, flags untouched. -/
theorem C38_mismatch (dims : List Nat) (starts steps : List T) (obs : List (List T)) (atol : T)
    (out : List Bool) (h : obs.length ≠ dims.length ∨ out.length ≠ dims.length) :
    checkBoundsRegular dims starts steps obs atol out = (.err "Dimension mismatch", out) := by
  rw [checkBoundsRegular_form]
  rw [if_pos]
  by_cases h1 : obs.length = dims.length
  · simp [h1]; tauto
  · simp [h1]

/-- Matching lengths and no empty dimension: success, and flag `k` is set exactly when some
observation `x` on axis `k` satisfies `x - lo <= -atol` or `x - hi >= atol` (in the arithmetic of
the float type), whatever the flags were before. `m k` is the float of the last node number. -/
theorem C38_flags (dims : Fin N → Nat) (starts steps : Fin N → T) (obs : Fin N → List T)
    (atol : T) (out : List Bool) (hout : out.length = N) (hd : ∀ k, 1 ≤ dims k)
    (m : Fin N → T) (hm : ∀ k, ofUsize (dims k - 1) = some (m k)) :
    ∃ flags : Fin N → Bool,
      checkBoundsRegular (List.ofFn dims) (List.ofFn starts) (List.ofFn steps) (List.ofFn obs)
        atol out = (.ok (), List.ofFn flags) ∧
      ∀ k, flags k = true ↔ ∃ x ∈ obs k,
        ((x -. fmin (starts k) (starts k +. steps k *. m k)) <=. (-. atol)) = true ∨
        (atol <=. (x -. fmax (starts k) (starts k +. steps k *. m k))) = true := by
  refine ⟨fun k => boundsFlag (fmin (starts k) (starts k +. steps k *. m k))
      (fmax (starts k) (starts k +. steps k *. m k)) atol (obs k), ?_,
    fun k => boundsFlag_iff _ _ _ _⟩
  rw [checkBoundsRegular_form]; unfold checkBoundsLoop
  simp only [List.length_ofFn]
  rw [if_neg (by simp [hout])]
  apply batchLoop_all_n _ _ _ _ hout
  · simp [hout]
  · intro j hj
    simp only [List.length_ofFn] at hj
    have h := checkBoundsRegularAxis_ok (dims := List.ofFn dims) (starts := List.ofFn starts)
      (steps := List.ofFn steps) (obs := List.ofFn obs) (atol := atol) (i := j)
      (s := starts ⟨j, hj⟩) (p := steps ⟨j, hj⟩) (d := dims ⟨j, hj⟩) (o := obs ⟨j, hj⟩)
      (m := m ⟨j, hj⟩)
      (by simp [hj]) (by simp [hj]) (by simp [hj]) (by simp [hj]) (hd _) (hm _)
    rw [h]; simp

/-- An empty dimension, or too few starts or steps, makes the check panic. -/
theorem C38_panics (hT : TotalOfUsize T) (dims : List Nat) (starts steps : List T)
    (obs : List (List T)) (atol : T) (out : List Bool) (ho : obs.length = dims.length)
    (hout : out.length = dims.length) (hu : ∀ d ∈ dims, d ≤ usizeMax)
    (h : 0 ∈ dims ∨ starts.length < dims.length ∨ steps.length < dims.length) :
    (checkBoundsRegular dims starts steps obs atol out).1 = .panic := by
  -- outcome of one axis
  have hax : ∀ i (hi : i < dims.length),
      (dims[i] = 0 ∨ starts.length ≤ i ∨ steps.length ≤ i) →
      checkBoundsRegularAxis dims starts steps obs atol i = .panic := by
    intro i hi hbad
    unfold checkBoundsRegularAxis
    by_cases h1 : starts.length ≤ i
    · rw [lget_eq_panic.2 h1]; rfl
    · rw [lget_lt _ (by omega), Res.ok_bind, lget_lt _ hi, Res.ok_bind]
      by_cases h2 : dims[i] = 0
      · rw [h2]; rfl
      · obtain ⟨f, hf⟩ := hT (dims[i] - 1) (by have := hu _ (List.getElem_mem hi); omega)
        rw [usub_ok (by omega), Res.ok_bind]
        simp only [hf, Res.ok_bind]
        rw [lget_eq_panic.2 (by omega)]; rfl
  have hok : ∀ i, i < dims.length → (∃ b, checkBoundsRegularAxis dims starts steps obs atol i = .ok b) ∨
      checkBoundsRegularAxis dims starts steps obs atol i = .panic := by
    intro i hi
    by_cases hb : dims[i] = 0 ∨ starts.length ≤ i ∨ steps.length ≤ i
    · exact .inr (hax i hi hb)
    · push Not at hb
      obtain ⟨f, hf⟩ := hT (dims[i] - 1) (by have := hu _ (List.getElem_mem hi); omega)
      exact .inl ⟨_, checkBoundsRegularAxis_ok (s := starts[i]) (p := steps[i]) (d := dims[i])
        (o := obs[i]) (by simp) (by simp) (by simp) (by simp) (by omega) hf⟩
  obtain ⟨i, hi, hb⟩ : ∃ i, ∃ hi : i < dims.length,
      (dims[i] = 0 ∨ starts.length ≤ i ∨ steps.length ≤ i) := by
    rcases h with h | h | h
    · obtain ⟨i, hi, he⟩ := List.getElem_of_mem h
      exact ⟨i, hi, .inl he⟩
    · exact ⟨dims.length - 1, by omega, by omega⟩
    · exact ⟨dims.length - 1, by omega, by omega⟩
  rw [checkBoundsRegular_form]; unfold checkBoundsLoop
  rw [if_neg (by simp [ho, hout]), ← hout]
  rcases batch_cases (checkBoundsRegularAxis dims starts steps obs atol) out.length with
    ⟨vs, hl, hv⟩ | ⟨vs, hl, hv, ⟨e, hf⟩ | hf⟩
  · have := hv i (by omega)
    rw [hax i hi hb] at this; cases this
  · rcases hok vs.length (by omega) with ⟨b, hb⟩ | hb
    · rw [hb] at hf; cases hf
    · rw [hb] at hf; cases hf
  · rw [(batchLoop_fail _ out vs hl hv).2 hf]

/-- Rectilinear: wrong lengths or an empty axis give an error and leave the flags untouched. -/
theorem C39_mismatch (grids obs : List (List T)) (atol : T) (out : List Bool)
    (h : obs.length ≠ grids.length ∨ out.length ≠ grids.length ∨ [] ∈ grids) :
    checkBoundsRectilinear grids obs atol out = (.err "Dimension mismatch", out) := by
  rw [checkBoundsRectilinear_form]
  rw [if_pos]
  simp only [Bool.not_and, Bool.or_eq_true, Bool.not_eq_true', decide_eq_false_iff_not,
    List.all_eq_false]
  rcases h with h | h | h
  · exact .inl (.inl h)
  · exact .inl (.inr h)
  · exact .inr ⟨[], h, by simp⟩

/-- Rectilinear: otherwise the check succeeds and sets the flags as for regular grids, with the
first and last grid entries as the range. Together with `C39_mismatch` this covers all inputs,
so nothing panics. -/
theorem C39_flags (grids obs : Fin N → List T) (atol : T) (out : List Bool)
    (hout : out.length = N) (hg : ∀ k, grids k ≠ []) :
    ∃ flags : Fin N → Bool,
      checkBoundsRectilinear (List.ofFn grids) (List.ofFn obs) atol out =
        (.ok (), List.ofFn flags) ∧
      ∀ k, flags k = true ↔ ∃ x ∈ obs k,
        ((x -. (grids k).head (hg k)) <=. (-. atol)) = true ∨
        (atol <=. (x -. (grids k).getLast (hg k))) = true := by
  refine ⟨fun k => boundsFlag ((grids k).head (hg k)) ((grids k).getLast (hg k)) atol (obs k), ?_,
    fun k => boundsFlag_iff _ _ _ _⟩
  rw [checkBoundsRectilinear_form]; unfold checkBoundsLoop
  simp only [List.length_ofFn]
  rw [if_neg]
  · apply batchLoop_all_n _ _ _ _ hout
    · simp [hout]
    · intro j hj
      simp only [List.length_ofFn] at hj
      unfold checkBoundsRectilinearAxis
      rw [lget_of_some (a := grids ⟨j, hj⟩) (by simp [hj]), Res.ok_bind,
        lget_of_some (a := (grids ⟨j, hj⟩).head (hg _)) (by
          rw [← List.head?_eq_getElem?, List.head?_eq_some_head]), Res.ok_bind, Res.ok_bind,
        List.getLast?_eq_some_getLast (hg _)]
      simp only
      rw [lget_of_some (a := obs ⟨j, hj⟩) (by simp [hj])]
      simp
  · simp [hout, List.mem_ofFn, hg]

/-- The second copy of the regular check, in the recursive module, has the same outcome and leaves
the same flags on every input, so all C38 theorems hold for it as well. -/
theorem C38_recursive_module (dims : List Nat) (starts steps : List T) (obs : List (List T))
    (atol : T) (out : List Bool) :
    checkBoundsRegularRecursive dims starts steps obs atol out =
      checkBoundsRegular dims starts steps obs atol out :=
  checkBoundsRegularRecursive_form ..

/-- The same for the rectilinear check. -/
theorem C39_recursive_module (grids obs : List (List T)) (atol : T) (out : List Bool) :
    checkBoundsRectilinearRecursive grids obs atol out =
      checkBoundsRectilinear grids obs atol out :=
  checkBoundsRectilinearRecursive_form ..

end LawFree

section Exact
variable {K : Type} [Field K] [LinearOrder K] [IsStrictOrderedRing K] [FloorRing K] {N : Nat}
attribute [local instance] exactOps

/-- `x` is at or beyond the range `lo..hi` widened by `atol` at both ends. -/
def BeyondTolerance (lo hi atol x : K) : Prop := x ≤ lo - atol ∨ hi + atol ≤ x

theorem beyond_iff (lo hi atol x : K) :
    (((x -. lo) <=. (-. atol)) = true ∨ (atol <=. (x -. hi)) = true) ↔
      BeyondTolerance lo hi atol x := by
  show (decide (x - lo ≤ -atol) = true ∨ decide (atol ≤ x - hi) = true) ↔ _
  unfold BeyondTolerance
  rw [decide_eq_true_iff, decide_eq_true_iff]
  constructor
  · rintro (h | h)
    · left; linarith
    · right; linarith
  · rintro (h | h)
    · left; linarith
    · right; linarith

/-- Regular grids in exact arithmetic: axis `k` is flagged exactly when an observation lies
beyond the tolerance around the range spanned by `start` and `start + step*(dim-1)` (either sign
of step). -/
theorem C38_exact (dims : Fin N → Nat) (starts steps : Fin N → K) (obs : Fin N → List K)
    (atol : K) (out : List Bool) (hout : out.length = N) (hd : ∀ k, 1 ≤ dims k) :
    ∃ flags : Fin N → Bool,
      checkBoundsRegular (List.ofFn dims) (List.ofFn starts) (List.ofFn steps) (List.ofFn obs)
        atol out = (.ok (), List.ofFn flags) ∧
      ∀ k, flags k = true ↔ ∃ x ∈ obs k, BeyondTolerance
        (min (starts k) (starts k + steps k * ((dims k - 1 : Nat) : K)))
        (max (starts k) (starts k + steps k * ((dims k - 1 : Nat) : K))) atol x := by
  obtain ⟨flags, h, hf⟩ := C38_flags dims starts steps obs atol out hout hd
    (fun k => ((dims k - 1 : Nat) : K)) (fun _ => rfl)
  refine ⟨flags, h, fun k => (hf k).trans ?_⟩
  simp only [beyond_iff]
  rfl

/-- Rectilinear grids in exact arithmetic. -/
theorem C39_exact (grids obs : Fin N → List K) (atol : K) (out : List Bool)
    (hout : out.length = N) (hg : ∀ k, grids k ≠ []) :
    ∃ flags : Fin N → Bool,
      checkBoundsRectilinear (List.ofFn grids) (List.ofFn obs) atol out =
        (.ok (), List.ofFn flags) ∧
      ∀ k, flags k = true ↔ ∃ x ∈ obs k,
        BeyondTolerance ((grids k).head (hg k)) ((grids k).getLast (hg k)) atol x := by
  obtain ⟨flags, h, hf⟩ := C39_flags grids obs atol out hout hg
  refine ⟨flags, h, fun k => (hf k).trans ?_⟩
  simp only [beyond_iff]

omit [FloorRing K] in
/-- With a positive tolerance no point of the closed range is flagged; with tolerance 0 both end
points are. -/
theorem C38_C39_tolerance (lo hi atol x : K) :
    (0 < atol → lo ≤ x → x ≤ hi → ¬ BeyondTolerance lo hi atol x) ∧
    (BeyondTolerance lo hi 0 lo ∧ BeyondTolerance lo hi 0 hi) ∧
    (0 < atol → x < lo - atol ∨ hi + atol < x → BeyondTolerance lo hi atol x) ∧
    (lo < x → x < hi → ¬ BeyondTolerance lo hi 0 x) := by
  unfold BeyondTolerance
  refine ⟨fun h1 h2 h3 h => ?_, ⟨.inl (by simp), .inr (by simp)⟩, fun _ h => ?_, fun h1 h2 h => ?_⟩
  · rcases h with h | h <;> linarith
  · exact h.imp le_of_lt le_of_lt
  · rcases h with h | h <;> simp at h <;> linarith

end Exact

section Examples
attribute [local instance] ratOps

/-- A 3×2 grid on [0,2]×[0,1]: the first axis is inside, the second has an observation at the
boundary, flagged with tolerance 0 but not with 1/10. -/
example :
    checkBoundsRegular [3, 2] [0, 0] [1, 1] [[1/2, 1], [1, 1/2]] (0 : ℚ) [true, true] =
      ((.ok (), [false, true]) : Res Unit × List Bool) ∧
    checkBoundsRegular [3, 2] [0, 0] [1, 1] [[1/2, 1], [1, 1/2]] (1/10 : ℚ) [true, true] =
      (.ok (), [false, false]) ∧
    checkBoundsRegular [3, 0] [0, 0] [1, 1] [[1/2], [1]] (1/10 : ℚ) [true, true] =
      (.panic, [false, true]) ∧
    checkBoundsRectilinear [[0, 1, 2], [0, 1]] [[1/2, 1], [1, 3/2]] (1/10 : ℚ) [true, true] =
      (.ok (), [false, true]) ∧
    checkBoundsRectilinear [[0, 1, 2], []] [[1/2], [1]] (1/10 : ℚ) [true, true] =
      (.err "Dimension mismatch", [true, true]) ∧
    checkBoundsRegularRecursive [3, 2] [0, 0] [1, 1] [[1/2, 1], [1, 1/2]] (0 : ℚ) [true, true] =
      ((.ok (), [false, true]) : Res Unit × List Bool) ∧
    checkBoundsRectilinearRecursive [[0, 1, 2], [0, 1]] [[1/2, 1], [1, 3/2]] (1/10 : ℚ)
      [true, true] = (.ok (), [false, true]) := by
  decide +kernel

end Examples

end Interpn
