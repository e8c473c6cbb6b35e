import Verif.Lemmas.Outcome
import Verif.Lemmas.RatOps
import Verif.Spec.Batch
import Mathlib.Tactic.IntervalCases

/-! C11, C12, C13: the `interpn` and `interpn_alloc` entry points. -/

set_option autoImplicit false

namespace Interpn
open FloatOps

section
variable {T : Type} [FloatOps T] {N : Nat}

omit [FloatOps T] in
theorem toArr_ofFn {α : Type} {N : Nat} (f : Fin N → α) : toArr N (List.ofFn f) = .ok f := by
  unfold toArr
  rw [dif_pos (by simp)]
  congr 1; funext i; simp

omit [FloatOps T] in
theorem toArr_ne {α : Type} {N : Nat} {s : List α} (h : s.length ≠ N) :
    toArr N s = .panic := by
  unfold toArr
  rw [dif_neg h]

omit [FloatOps T] in
theorem tryOut_eq {α : Type} (r : Res α) (out : List T) (f : α → Res Unit × List T) :
    tryOut r out f = constructThen r out f := by
  cases r <;> rfl

omit [FloatOps T] in
theorem constructThen_ok {α : Type} (a : α) (out : List T) (f : α → Res Unit × List T) :
    constructThen (.ok a) out f = f a := rfl

/-! #### C11: multilinear and nearest -/

/-- C11: 1 to 6 axes run the flattened evaluator. -/
theorem C11_multilinear_regular_flat (fma : Bool) (h1 : 1 ≤ N) (h6 : N ≤ 6) (dims : Fin N → Nat)
    (starts steps : Fin N → T) (vals : List T) (obs : Fin N → List T) (out : List T) :
    multilinearRegularInterpn fma (List.ofFn dims) (List.ofFn starts) (List.ofFn steps) vals
      (List.ofFn obs) out =
    constructThen (MultilinearRegular.new dims starts steps vals) out
      fun s => s.interp fma obs out := by
  have key : linRegularBranch fma N (List.ofFn dims) (List.ofFn starts) (List.ofFn steps) vals
      (List.ofFn obs) out =
      constructThen (MultilinearRegular.new dims starts steps vals) out
        fun s => s.interp fma obs out := by
    unfold linRegularBranch
    simp only [toArr_ofFn, Res.ok_bind, tryOut_eq, constructThen_ok]
  rw [← key]
  unfold multilinearRegularInterpn
  interval_cases N <;> simp

/-- C11: 7 or 8 axes run the recursive evaluator. -/
theorem C11_multilinear_regular_recursive (fma : Bool) (h : N = 7 ∨ N = 8) (dims : Fin N → Nat)
    (starts steps : Fin N → T) (vals : List T) (obs : Fin N → List T) (out : List T) :
    multilinearRegularInterpn fma (List.ofFn dims) (List.ofFn starts) (List.ofFn steps) vals
      (List.ofFn obs) out =
    constructThen (MultilinearRegularRecursive.new N (List.ofFn dims) (List.ofFn starts)
      (List.ofFn steps) vals) out
      fun s => s.interp fma (List.ofFn obs) out := by
  unfold multilinearRegularInterpn
  rcases h with rfl | rfl <;> simp [tryOut_eq]

/-- C11: mismatched numbers of slices are an error and leave the buffer alone; so does any
number of axes other than 1 to 8. -/
theorem C11_multilinear_regular_errors (fma : Bool) (dims : List Nat) (starts steps vals : List T)
    (obs : List (List T)) (out : List T) :
    (starts.length ≠ dims.length ∨ steps.length ≠ dims.length ∨ obs.length ≠ dims.length →
      multilinearRegularInterpn fma dims starts steps vals obs out =
        (.err "Dimension mismatch", out)) ∧
    (starts.length = dims.length → steps.length = dims.length → obs.length = dims.length →
      dims.length = 0 ∨ 8 < dims.length →
      multilinearRegularInterpn fma dims starts steps vals obs out =
        (.err ("Dimension exceeds maximum (8). " ++
          "Use interpolator struct directly for higher dimensions."), out)) := by
  unfold multilinearRegularInterpn
  refine ⟨fun h => ?_, fun h1 h2 h3 h => ?_⟩
  · simp only
    rw [if_pos (by simpa [or_assoc] using h)]
  · simp only
    rw [if_neg (by simp [h1, h2, h3])]
    split <;> first | rfl | omega

/-- C11, rectilinear: 1 to 6 axes run the flattened evaluator. -/
theorem C11_multilinear_rectilinear_flat (fma : Bool) (h1 : 1 ≤ N) (h6 : N ≤ 6)
    (grids : Fin N → List T) (vals : List T) (obs : Fin N → List T) (out : List T) :
    multilinearRectilinearInterpn fma (List.ofFn grids) vals (List.ofFn obs) out =
    constructThen (MultilinearRectilinear.new grids vals) out
      fun s => s.interp fma obs out := by
  have key : linRectilinearBranch fma N (List.ofFn grids) vals (List.ofFn obs) out =
      constructThen (MultilinearRectilinear.new grids vals) out
        fun s => s.interp fma obs out := by
    unfold linRectilinearBranch
    simp only [toArr_ofFn, Res.ok_bind, tryOut_eq, constructThen_ok]
  rw [← key]
  unfold multilinearRectilinearInterpn
  interval_cases N <;> simp

/-- C11, rectilinear: 7 or 8 axes run the recursive evaluator. -/
theorem C11_multilinear_rectilinear_recursive (fma : Bool) (h : N = 7 ∨ N = 8)
    (grids : Fin N → List T) (vals : List T) (obs : Fin N → List T) (out : List T) :
    multilinearRectilinearInterpn fma (List.ofFn grids) vals (List.ofFn obs) out =
    constructThen (MultilinearRectilinearRecursive.new N (List.ofFn grids) vals) out
      fun s => s.interp fma (List.ofFn obs) out := by
  unfold multilinearRectilinearInterpn
  rcases h with rfl | rfl <;> simp [tryOut_eq]

/-- C11, rectilinear: errors. -/
theorem C11_multilinear_rectilinear_errors (fma : Bool) (grids : List (List T)) (vals : List T)
    (obs : List (List T)) (out : List T) :
    (obs.length ≠ grids.length →
      multilinearRectilinearInterpn fma grids vals obs out = (.err "Dimension mismatch", out)) ∧
    (obs.length = grids.length → grids.length = 0 ∨ 8 < grids.length →
      multilinearRectilinearInterpn fma grids vals obs out =
        (.err ("Dimension exceeds maximum (8). " ++
          "Use interpolator struct directly for higher dimensions."), out)) := by
  unfold multilinearRectilinearInterpn
  refine ⟨fun h => ?_, fun h1 h => ?_⟩
  · simp only
    rw [if_pos h]
  · simp only
    rw [if_neg (by simp [h1])]
    split <;> first | rfl | omega

/-- C11, nearest neighbor: 1 to 6 axes. -/
theorem C11_nearest_regular (fma : Bool) (h1 : 1 ≤ N) (h6 : N ≤ 6) (dims : Fin N → Nat)
    (starts steps : Fin N → T) (vals : List T) (obs : Fin N → List T) (out : List T) :
    nearestRegularInterpn fma (List.ofFn dims) (List.ofFn starts) (List.ofFn steps) vals
      (List.ofFn obs) out =
    constructThen (NearestRegular.new dims starts steps vals) out
      fun s => s.interp fma obs out := by
  have key : nearestRegularBranch fma N (List.ofFn dims) (List.ofFn starts) (List.ofFn steps) vals
      (List.ofFn obs) out =
      constructThen (NearestRegular.new dims starts steps vals) out
        fun s => s.interp fma obs out := by
    unfold nearestRegularBranch
    simp only [toArr_ofFn, Res.ok_bind, tryOut_eq, constructThen_ok]
  rw [← key]
  unfold nearestRegularInterpn
  interval_cases N <;> simp

/-- C11, nearest neighbor: errors. -/
theorem C11_nearest_regular_errors (fma : Bool) (dims : List Nat) (starts steps vals : List T)
    (obs : List (List T)) (out : List T) :
    (starts.length ≠ dims.length ∨ steps.length ≠ dims.length ∨ obs.length ≠ dims.length →
      nearestRegularInterpn fma dims starts steps vals obs out =
        (.err "Dimension mismatch", out)) ∧
    (starts.length = dims.length → steps.length = dims.length → obs.length = dims.length →
      dims.length = 0 ∨ 6 < dims.length →
      nearestRegularInterpn fma dims starts steps vals obs out =
        (.err "Dimension exceeds maximum (6).", out)) := by
  unfold nearestRegularInterpn
  refine ⟨fun h => ?_, fun h1 h2 h3 h => ?_⟩
  · simp only
    rw [if_pos (by simpa [or_assoc] using h)]
  · simp only
    rw [if_neg (by simp [h1, h2, h3])]
    split <;> first | rfl | omega

/-- C11, nearest neighbor on rectilinear grids: 1 to 6 axes. -/
theorem C11_nearest_rectilinear (h1 : 1 ≤ N) (h6 : N ≤ 6)
    (grids : Fin N → List T) (vals : List T) (obs : Fin N → List T) (out : List T) :
    nearestRectilinearInterpn (List.ofFn grids) vals (List.ofFn obs) out =
    constructThen (NearestRectilinear.new grids vals) out
      fun s => s.interp obs out := by
  have key : nearestRectilinearBranch N (List.ofFn grids) vals (List.ofFn obs) out =
      constructThen (NearestRectilinear.new grids vals) out
        fun s => s.interp obs out := by
    unfold nearestRectilinearBranch
    simp only [toArr_ofFn, Res.ok_bind, tryOut_eq, constructThen_ok]
  rw [← key]
  unfold nearestRectilinearInterpn
  interval_cases N <;> simp

/-- C11, nearest neighbor on rectilinear grids: errors. -/
theorem C11_nearest_rectilinear_errors (grids : List (List T)) (vals : List T)
    (obs : List (List T)) (out : List T) :
    (obs.length ≠ grids.length →
      nearestRectilinearInterpn grids vals obs out = (.err "Dimension mismatch", out)) ∧
    (obs.length = grids.length → grids.length = 0 ∨ 6 < grids.length →
      nearestRectilinearInterpn grids vals obs out =
        (.err "Dimension exceeds maximum (6).", out)) := by
  unfold nearestRectilinearInterpn
  refine ⟨fun h => ?_, fun h1 h => ?_⟩
  · simp only
    rw [if_pos h]
  · simp only
    rw [if_neg (by simp [h1])]
    split <;> first | rfl | omega

/-! #### C12: multicubic -/

/-- C12: 1 to 4 axes run the flattened evaluator. -/
theorem C12_multicubic_regular_flat (fma : Bool) (h1 : 1 ≤ N) (h4 : N ≤ 4) (dims : Fin N → Nat)
    (starts steps : Fin N → T) (vals : List T) (lin : Bool) (obs : Fin N → List T)
    (out : List T) :
    multicubicRegularInterpn fma (List.ofFn dims) (List.ofFn starts) (List.ofFn steps) vals lin
      (List.ofFn obs) out =
    constructThen (MulticubicRegular.new dims starts steps vals lin) out
      fun s => s.interp fma obs out := by
  have key : cubRegularBranch fma N (List.ofFn dims) (List.ofFn starts) (List.ofFn steps) vals lin
      (List.ofFn obs) out =
      constructThen (MulticubicRegular.new dims starts steps vals lin) out
        fun s => s.interp fma obs out := by
    unfold cubRegularBranch
    simp only [toArr_ofFn, Res.ok_bind, tryOut_eq, constructThen_ok]
  rw [← key]
  unfold multicubicRegularInterpn
  interval_cases N <;> simp

/-- C12: 5 to 8 axes run the recursive evaluator (which checks lengths itself, so this holds
for slices of any lengths). -/
theorem C12_multicubic_regular_recursive (fma : Bool) (dims : List Nat)
    (starts steps vals : List T) (lin : Bool) (obs : List (List T)) (out : List T)
    {k : Nat} (hk : dims.length = k) (h5 : 5 ≤ k) (h8 : k ≤ 8) :
    multicubicRegularInterpn fma dims starts steps vals lin obs out =
    constructThen (MulticubicRegularRecursive.new k dims starts steps vals lin) out
      fun s => s.interp fma obs out := by
  unfold multicubicRegularInterpn
  rw [hk]
  interval_cases k <;> exact tryOut_eq _ _ _

/-- C12: other numbers of axes are an error. -/
theorem C12_multicubic_regular_errors (fma : Bool) (dims : List Nat) (starts steps vals : List T)
    (lin : Bool) (obs : List (List T)) (out : List T) (h : dims.length = 0 ∨ 8 < dims.length) :
    multicubicRegularInterpn fma dims starts steps vals lin obs out =
      (.err ("Dimension exceeds maximum (8). " ++
        "Use interpolator struct directly for higher dimensions."), out) := by
  unfold multicubicRegularInterpn
  split <;> first | rfl | omega

/-- C12: with 1 to 4 axes a wrong number of `starts` or `steps` panics, and a wrong number of
observation slices panics once the grid itself was accepted. -/
theorem C12_multicubic_regular_panics (fma : Bool) (dims : List Nat) (starts steps vals : List T)
    (lin : Bool) (obs : List (List T)) (out : List T) (h1 : 1 ≤ dims.length)
    (h4 : dims.length ≤ 4) :
    (starts.length ≠ dims.length ∨ steps.length ≠ dims.length →
      multicubicRegularInterpn fma dims starts steps vals lin obs out = (.panic, out)) ∧
    (∀ (N : Nat) (d : Fin N → Nat) (st sp : Fin N → T) (s : MulticubicRegular T N),
      dims = List.ofFn d → starts = List.ofFn st → steps = List.ofFn sp →
      MulticubicRegular.new d st sp vals lin = .ok s → obs.length ≠ dims.length →
      multicubicRegularInterpn fma dims starts steps vals lin obs out = (.panic, out)) := by
  have key : multicubicRegularInterpn fma dims starts steps vals lin obs out =
      cubRegularBranch fma dims.length dims starts steps vals lin obs out := by
    unfold multicubicRegularInterpn
    generalize hn : dims.length = n at *
    interval_cases n <;> rfl
  rw [key]
  constructor
  · intro h
    unfold cubRegularBranch
    have hd : toArr dims.length dims = .ok (fun i => dims[i.val]) := by
      unfold toArr; rw [dif_pos rfl]
    rw [hd, Res.ok_bind]
    by_cases hs : starts.length = dims.length
    · obtain ⟨st, rfl⟩ := exists_ofFn starts hs
      rw [toArr_ofFn, Res.ok_bind, toArr_ne (by tauto)]; rfl
    · rw [toArr_ne hs]; rfl
  · rintro N d st sp s rfl rfl rfl hnew hobs
    have e : (List.ofFn d).length = N := List.length_ofFn
    rw [e] at hobs ⊢
    unfold cubRegularBranch
    simp only [toArr_ofFn, Res.ok_bind, hnew, tryOut, toArr_ne hobs]

/-- C12, rectilinear: 1 to 4 axes run the flattened evaluator. -/
theorem C12_multicubic_rectilinear_flat (fma : Bool) (h1 : 1 ≤ N) (h4 : N ≤ 4)
    (grids : Fin N → List T) (vals : List T) (lin : Bool) (obs : Fin N → List T)
    (out : List T) :
    multicubicRectilinearInterpn fma (List.ofFn grids) vals lin (List.ofFn obs) out =
    constructThen (MulticubicRectilinear.new grids vals lin) out
      fun s => s.interp fma obs out := by
  have key : cubRectilinearBranch fma N (List.ofFn grids) vals lin (List.ofFn obs) out =
      constructThen (MulticubicRectilinear.new grids vals lin) out
        fun s => s.interp fma obs out := by
    unfold cubRectilinearBranch
    simp only [toArr_ofFn, Res.ok_bind, tryOut_eq, constructThen_ok]
  rw [← key]
  unfold multicubicRectilinearInterpn
  interval_cases N <;> simp

/-- C12, rectilinear: 5 to 8 axes run the recursive evaluator. -/
theorem C12_multicubic_rectilinear_recursive (fma : Bool) (grids : List (List T))
    (vals : List T) (lin : Bool) (obs : List (List T)) (out : List T)
    {k : Nat} (hk : grids.length = k) (h5 : 5 ≤ k) (h8 : k ≤ 8) :
    multicubicRectilinearInterpn fma grids vals lin obs out =
    constructThen (MulticubicRectilinearRecursive.new k grids vals lin) out
      fun s => s.interp fma obs out := by
  unfold multicubicRectilinearInterpn
  rw [hk]
  interval_cases k <;> exact tryOut_eq _ _ _

/-- C12, rectilinear: other numbers of axes are an error. -/
theorem C12_multicubic_rectilinear_errors (fma : Bool) (grids : List (List T)) (vals : List T)
    (lin : Bool) (obs : List (List T)) (out : List T)
    (h : grids.length = 0 ∨ 8 < grids.length) :
    multicubicRectilinearInterpn fma grids vals lin obs out =
      (.err ("Dimension exceeds maximum (8). " ++
        "Use interpolator struct directly for higher dimensions."), out) := by
  unfold multicubicRectilinearInterpn
  split <;> first | rfl | omega

/-- C12, rectilinear: with 1 to 4 axes a wrong number of observation slices panics once the
grid itself was accepted. -/
theorem C12_multicubic_rectilinear_panics (fma : Bool) (h1 : 1 ≤ N) (h4 : N ≤ 4)
    (grids : Fin N → List T) (vals : List T) (lin : Bool) (obs : List (List T)) (out : List T)
    (s : MulticubicRectilinear T N) (hnew : MulticubicRectilinear.new grids vals lin = .ok s)
    (hobs : obs.length ≠ N) :
    multicubicRectilinearInterpn fma (List.ofFn grids) vals lin obs out = (.panic, out) := by
  have key : cubRectilinearBranch fma N (List.ofFn grids) vals lin obs out = (.panic, out) := by
    unfold cubRectilinearBranch
    simp only [toArr_ofFn, Res.ok_bind, hnew, tryOut, toArr_ne hobs]
  rw [← key]
  unfold multicubicRectilinearInterpn
  interval_cases N <;> simp

/-! #### The recursive modules' own entry points -/

/-- C11 for `multilinear::regular_recursive::interpn`: recursive evaluator for 1 to 8 axes,
error otherwise, whatever the slices' lengths. -/
theorem C11_multilinear_regular_recursive_module (fma : Bool) (dims : List Nat)
    (starts steps vals : List T) (obs : List (List T)) (out : List T) :
    (∀ k, dims.length = k → 1 ≤ k → k ≤ 8 →
      multilinearRegularRecursiveInterpn fma dims starts steps vals obs out =
      constructThen (MultilinearRegularRecursive.new k dims starts steps vals) out
        fun s => s.interp fma obs out) ∧
    (dims.length = 0 ∨ 8 < dims.length →
      multilinearRegularRecursiveInterpn fma dims starts steps vals obs out =
      (.err ("Dimension exceeds maximum (8). " ++
        "Use interpolator struct directly for higher dimensions."), out)) := by
  unfold multilinearRegularRecursiveInterpn
  constructor
  · intro k hk h1 h8
    rw [hk]
    interval_cases k <;> exact tryOut_eq _ _ _
  · intro h
    split <;> first | rfl | omega

/-- C11 for `multilinear::rectilinear_recursive::interpn`. -/
theorem C11_multilinear_rectilinear_recursive_module (fma : Bool) (grids : List (List T))
    (vals : List T) (obs : List (List T)) (out : List T) :
    (∀ k, grids.length = k → 1 ≤ k → k ≤ 8 →
      multilinearRectilinearRecursiveInterpn fma grids vals obs out =
      constructThen (MultilinearRectilinearRecursive.new k grids vals) out
        fun s => s.interp fma obs out) ∧
    (grids.length = 0 ∨ 8 < grids.length →
      multilinearRectilinearRecursiveInterpn fma grids vals obs out =
      (.err ("Dimension exceeds maximum (8). " ++
        "Use interpolator struct directly for higher dimensions."), out)) := by
  unfold multilinearRectilinearRecursiveInterpn
  constructor
  · intro k hk h1 h8
    rw [hk]
    interval_cases k <;> exact tryOut_eq _ _ _
  · intro h
    split <;> first | rfl | omega

/-- C12 for `multicubic::regular_recursive::interpn`: no length mismatch panics here. -/
theorem C12_multicubic_regular_recursive_module (fma : Bool) (dims : List Nat)
    (starts steps vals : List T) (lin : Bool) (obs : List (List T)) (out : List T) :
    (∀ k, dims.length = k → 1 ≤ k → k ≤ 8 →
      multicubicRegularRecursiveInterpn fma dims starts steps vals lin obs out =
      constructThen (MulticubicRegularRecursive.new k dims starts steps vals lin) out
        fun s => s.interp fma obs out) ∧
    (dims.length = 0 ∨ 8 < dims.length →
      multicubicRegularRecursiveInterpn fma dims starts steps vals lin obs out =
      (.err ("Dimension exceeds maximum (8). " ++
        "Use interpolator struct directly for higher dimensions."), out)) := by
  unfold multicubicRegularRecursiveInterpn
  constructor
  · intro k hk h1 h8
    rw [hk]
    interval_cases k <;> exact tryOut_eq _ _ _
  · intro h
    split <;> first | rfl | omega

/-- C12 for `multicubic::rectilinear_recursive::interpn`. -/
theorem C12_multicubic_rectilinear_recursive_module (fma : Bool) (grids : List (List T))
    (vals : List T) (lin : Bool) (obs : List (List T)) (out : List T) :
    (∀ k, grids.length = k → 1 ≤ k → k ≤ 8 →
      multicubicRectilinearRecursiveInterpn fma grids vals lin obs out =
      constructThen (MulticubicRectilinearRecursive.new k grids vals lin) out
        fun s => s.interp fma obs out) ∧
    (grids.length = 0 ∨ 8 < grids.length →
      multicubicRectilinearRecursiveInterpn fma grids vals lin obs out =
      (.err ("Dimension exceeds maximum (8). " ++
        "Use interpolator struct directly for higher dimensions."), out)) := by
  unfold multicubicRectilinearRecursiveInterpn
  constructor
  · intro k hk h1 h8
    rw [hk]
    interval_cases k <;> exact tryOut_eq _ _ _
  · intro h
    split <;> first | rfl | omega

/-! #### C13: `interpn_alloc` -/

/-- What an allocating entry point does, in terms of the one writing into a buffer. -/
def AllocSpec (alloc : List (List T) → Res (List T))
    (run : List (List T) → List T → Res Unit × List T) : Prop :=
  alloc [] = .panic ∧
  ∀ o rest,
    (∀ v, alloc (o :: rest) = .ok v ↔
      run (o :: rest) (List.replicate o.length zero) = (.ok (), v)) ∧
    (∀ e, alloc (o :: rest) = .err e ↔
      (run (o :: rest) (List.replicate o.length zero)).1 = .err e) ∧
    (alloc (o :: rest) = .panic ↔
      (run (o :: rest) (List.replicate o.length zero)).1 = .panic)

theorem allocRun_spec (run : List (List T) → List T → Res Unit × List T) :
    AllocSpec (fun obs => allocRun zero obs (run obs)) run := by
  refine ⟨rfl, fun o rest => ?_⟩
  have h : allocRun zero (o :: rest) (run (o :: rest)) =
      ((run (o :: rest) (List.replicate o.length zero)).1 >>= fun _ =>
        .ok (run (o :: rest) (List.replicate o.length zero)).2) := rfl
  simp only [h]
  generalize run (o :: rest) (List.replicate o.length zero) = r
  obtain ⟨r1, r2⟩ := r
  cases r1 <;> simp [Bind.bind, Res.bind]

/-- C13, all six `interpn_alloc` functions of the flattened and nearest modules. -/
theorem C13_interpn_alloc (fma lin : Bool) (dims : List Nat) (starts steps vals : List T)
    (grids : List (List T)) :
    AllocSpec (multilinearRegularInterpnAlloc fma dims starts steps vals)
      (multilinearRegularInterpn fma dims starts steps vals) ∧
    AllocSpec (multilinearRectilinearInterpnAlloc fma grids vals)
      (multilinearRectilinearInterpn fma grids vals) ∧
    AllocSpec (nearestRegularInterpnAlloc fma dims starts steps vals)
      (nearestRegularInterpn fma dims starts steps vals) ∧
    AllocSpec (nearestRectilinearInterpnAlloc grids vals)
      (nearestRectilinearInterpn grids vals) ∧
    AllocSpec (multicubicRegularInterpnAlloc fma dims starts steps vals lin)
      (multicubicRegularInterpn fma dims starts steps vals lin) ∧
    AllocSpec (multicubicRectilinearInterpnAlloc fma grids vals lin)
      (multicubicRectilinearInterpn fma grids vals lin) :=
  ⟨allocRun_spec _, allocRun_spec _, allocRun_spec _, allocRun_spec _, allocRun_spec _,
    allocRun_spec _⟩

/-- C13, the four `interpn_alloc` functions of the recursive modules. -/
theorem C13_interpn_alloc_recursive (fma lin : Bool) (dims : List Nat)
    (starts steps vals : List T) (grids : List (List T)) :
    AllocSpec (multilinearRegularRecursiveInterpnAlloc fma dims starts steps vals)
      (multilinearRegularRecursiveInterpn fma dims starts steps vals) ∧
    AllocSpec (multilinearRectilinearRecursiveInterpnAlloc fma grids vals)
      (multilinearRectilinearRecursiveInterpn fma grids vals) ∧
    AllocSpec (multicubicRegularRecursiveInterpnAlloc fma dims starts steps vals lin)
      (multicubicRegularRecursiveInterpn fma dims starts steps vals lin) ∧
    AllocSpec (multicubicRectilinearRecursiveInterpnAlloc fma grids vals lin)
      (multicubicRectilinearRecursiveInterpn fma grids vals lin) :=
  ⟨allocRun_spec _, allocRun_spec _, allocRun_spec _, allocRun_spec _⟩

end

/-! #### Concrete cases -/

section
attribute [local instance] ratOps

example : multilinearRegularInterpn (T := ℚ) true [2, 2] [0, 0] [1, 1] [1, 2, 3, 4]
    [[1/2, 1], [1/2, 2]] [0, 0] = (.ok (), [5/2, 5]) := by decide +kernel
example : multilinearRegularInterpn (T := ℚ) true [2, 2] [0, 0] [1] [1, 2, 3, 4]
    [[1/2, 1], [1/2, 2]] [7, 8] = (.err "Dimension mismatch", [7, 8]) := by decide +kernel
/-- The same mistake panics in the cubic entry point. -/
example : multicubicRegularInterpn (T := ℚ) true [4] [0] [] [1, 2, 3, 4] true
    [[1/2, 1]] [7, 8] = (.panic, [7, 8]) := by decide +kernel
example : multicubicRegularInterpn (T := ℚ) true [4] [0] [1] [1, 2, 3, 4] true
    [[1/2, 1], []] [7, 8] = (.panic, [7, 8]) := by decide +kernel
example : multicubicRectilinearInterpn (T := ℚ) false [[0, 1, 3, 4]] [1, 2, 4, 5] true
    [[1/2, 6]] [7, 8] = (.ok (), [3/2, 7]) := by decide +kernel
example : multicubicRegularInterpnAlloc (T := ℚ) true [4] [0] [1] [1, 2, 3, 4] true
    [[1/2, 1]] = .ok [3/2, 2] := by decide +kernel
example : nearestRegularInterpnAlloc (T := ℚ) true [4] [0] [1] [1, 2, 3, 4] [] = .panic := by
  decide +kernel

end

end Interpn
