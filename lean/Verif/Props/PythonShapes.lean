import Verif.Lemmas.PythonShapes
import Verif.Lemmas.RatOps

/-! C78 to C80: array shapes and element types in the Python interface. The statements ending in
`_f64` and `_f32` are the same for the two element types. -/

set_option autoImplicit false
set_option linter.unusedSectionVars false

namespace Interpn
open FloatOps

variable {F32 F64 X : Type} [FloatOps F32] [FloatOps F64]

/-! #### C78: shapes, float64 -/

/-- C78: on float64 arrays of any shapes, `interpn` does what it does on the flattened arrays (as
described by C49 and C50: same routine, same numbers, same exceptions), and the returned array has
the shape of the first observation array, or that of `out` when `out` is used. -/
theorem C78_interpn_f64 (np : Numpy F32 F64 X) (nx : NumpyX X) (fma : Bool)
    (obs grids : List (List Nat × List F64)) (vals : List Nat × List F64) (meth : String)
    (out : Option (List Nat × List F64)) (lin assume checkB : Bool) (atol : F64) :
    npInterpn np nx fma (obs.map NdArray.f64) (grids.map NdArray.f64) (NdArray.f64 vals) meth
        (out.map NdArray.f64) lin assume checkB atol =
      (pyInterpn fma .float64 (obs.map Prod.snd) (grids.map Prod.snd) vals.2 meth (out.map Prod.snd)
          lin assume checkB atol).map
        fun r => (r.1, NdArray.f64 (returnShape obs out, r.2)) := by
  unfold npInterpn
  rw [npOutOr_f64]
  cases ho : pyOut (out.map Prod.snd) (obs.map Prod.snd) with
  | error e =>
    have : pyInterpn fma .float64 (obs.map Prod.snd) (grids.map Prod.snd) vals.2 meth
        (out.map Prod.snd) lin assume checkB atol = .error e := by
      unfold pyInterpn; rw [ho]; rfl
    rw [this]; rfl
  | ok o =>
    have h := npInterpn64_eq np nx fma (obs.map Prod.snd) (grids.map Prod.snd) vals.2 o o
      (out.map Prod.snd) meth lin assume checkB atol ho rfl
    rw [← h]
    simp only [Except.map, ok_bind']
    have e1 : (obs.map (NdArray.f64 (F32 := F32) (X := X))).map NdArray.contents =
        (obs.map Prod.snd).map .f64 := by rw [List.map_map, List.map_map]; rfl
    have e2 : (grids.map (NdArray.f64 (F32 := F32) (X := X))).map NdArray.contents =
        (grids.map Prod.snd).map .f64 := by rw [List.map_map, List.map_map]; rfl
    rw [e1, e2]
    simp only [NdArray.f64]
    cases npInterpn64 np nx fma ((obs.map Prod.snd).map .f64) ((grids.map Prod.snd).map .f64) vals.2
      meth (.f64 o) lin assume checkB atol with
    | error e => rfl
    | ok r => rfl

/-- C78: the returned array has as many entries as its shape says, provided the arrays given do. -/
theorem C78_wellshaped_f64 (np : Numpy F32 F64 X) (nx : NumpyX X) (fma : Bool)
    (obs grids : List (List Nat × List F64)) (vals : List Nat × List F64) (meth : String)
    (out : Option (List Nat × List F64)) (lin assume checkB : Bool) (atol : F64)
    (hobs : ∀ a ∈ obs, a.2.length = a.1.prod) (hout : ∀ a ∈ out, a.2.length = a.1.prod)
    (call : RawCall) (r : NdArray F32 F64 X)
    (h : npInterpn np nx fma (obs.map NdArray.f64) (grids.map NdArray.f64) (NdArray.f64 vals) meth
      (out.map NdArray.f64) lin assume checkB atol = .ok (call, r)) :
    r.dtype = .float64 ∧ r.WellShaped := by
  rw [C78_interpn_f64] at h
  cases hp : pyInterpn fma .float64 (obs.map Prod.snd) (grids.map Prod.snd) vals.2 meth
      (out.map Prod.snd) lin assume checkB atol with
  | error e => rw [hp] at h; cases h
  | ok q =>
    rw [hp] at h
    obtain ⟨out', ho, hl⟩ := pyInterpn_length (r := q.2) (call := q.1) hp
    cases h
    refine ⟨rfl, ?_⟩
    unfold NdArray.WellShaped NdArray.f64 NpArray.size returnShape
    simp only [hl]
    rcases out with _ | ⟨sh, _ | ⟨v, _ | ⟨w, l⟩⟩⟩
    · cases obs with
      | nil => cases ho
      | cons o obs => cases ho; simpa using hobs o (by simp)
    · cases obs with
      | nil => cases ho
      | cons o obs => cases ho; simpa using hobs o (by simp)
    · simp only [Option.map_some, pyOut] at ho
      simp only
      split
      · rename_i hv
        rw [if_pos hv] at ho
        cases obs with
        | nil => cases ho
        | cons o obs => cases ho; simpa using hobs o (by simp)
      · rename_i hv
        rw [if_neg hv] at ho
        cases ho
        exact hout _ rfl
    · cases ho

/-! #### C79: element types, float64 -/

/-- C79: float64 values with an observation array of another element type raise `TypeError`, on
regular and rectilinear grids, for any shapes, with and without bounds check. -/
theorem C79_obs_f64 (np : Numpy F32 F64 X) (nx : NumpyX X) (fma : Bool)
    (obs grids : List (NdArray F32 F64 X)) (vals : List Nat × List F64) (m : PyMethod)
    (lin assume checkB : Bool) (atol : F64) (h2 : ∀ g ∈ grids, 2 ≤ g.contents.size)
    (hne : ∃ a ∈ obs, a.dtype ≠ .float64) :
    npInterpn np nx fma obs grids (NdArray.f64 vals) m.name none lin assume checkB atol =
      .error .typeError := by
  unfold npInterpn npOutOr
  obtain ⟨o, obs', rfl⟩ : ∃ o obs', obs = o :: obs' := by
    cases obs with
    | nil => obtain ⟨a, ha, _⟩ := hne; simp at ha
    | cons o obs' => exact ⟨o, obs', rfl⟩
  simp only [ok_bind', NdArray.f64]
  have hg2 : ∀ g ∈ grids.map NdArray.contents, 2 ≤ g.size := by
    intro g hg
    obtain ⟨a, ha, rfl⟩ := List.mem_map.1 hg
    exact h2 a ha
  have hobs : pyEach NpArray.asF64 ((o :: obs').map NdArray.contents) = .error .typeError := by
    rcases pyEach_dtype (ty := NpArray.dtype) asF64_cases ((o :: obs').map NdArray.contents) with
      ⟨h, _⟩ | ⟨_, h⟩
    · obtain ⟨a, ha, hd⟩ := hne
      exact absurd (h a.contents (List.mem_map.2 ⟨a, ha, rfl⟩)) hd
    · exact h
  generalize (o :: obs').map NdArray.contents = obsc at hobs
  generalize grids.map NdArray.contents = gr at hg2
  obtain ⟨b, hb, -⟩ := npCheckRegular_cases nx gr hg2
  obtain ⟨p, hp, -⟩ := startStep_list_f64 np nx gr hg2
  have hd := fun b => pyDispatch_name .float64 (by decide) b m
  unfold npInterpn64
  simp only [hb, hp, hobs, hd, ok_bind', error_bind', pure, Except.pure]
  have hgr := pyEach_dtype (ty := NpArray.dtype) (asF64_cases (F32 := F32) (X := X)) gr
  rcases hgr with ⟨_, d, hd⟩ | ⟨_, hd⟩ <;> rw [hd] <;>
    cases assume <;> cases b <;> cases checkB <;> rfl

/-- C79: a given `out` that is used (one entry, non-zero) must have the element type of the values,
too. -/
theorem C79_out_f64 (np : Numpy F32 F64 X) (nx : NumpyX X) (fma : Bool)
    (obs grids : List (NdArray F32 F64 X)) (vals : List Nat × List F64) (m : PyMethod)
    (out : NdArray F32 F64 X) (lin assume : Bool) (atol : F64)
    (h2 : ∀ g ∈ grids, 2 ≤ g.contents.size)
    (hused : out.contents.truth np nx = .ok true) (hne : out.dtype ≠ .float64) :
    npInterpn np nx fma obs grids (NdArray.f64 vals) m.name (some out) lin assume false atol =
      .error .typeError := by
  unfold npInterpn npOutOr
  simp only [hused, ok_bind', NdArray.f64, if_true]
  have hg2 : ∀ g ∈ grids.map NdArray.contents, 2 ≤ g.size := by
    intro g hg
    obtain ⟨a, ha, rfl⟩ := List.mem_map.1 hg
    exact h2 a ha
  have hout : out.contents.asF64 = .error .typeError := by
    rcases asF64_cases out.contents with ⟨h, _⟩ | ⟨_, h⟩
    · exact absurd h hne
    · exact h
  generalize obs.map NdArray.contents = obsc
  generalize grids.map NdArray.contents = gr at hg2
  obtain ⟨b, hb, -⟩ := npCheckRegular_cases nx gr hg2
  obtain ⟨p, hp, -⟩ := startStep_list_f64 np nx gr hg2
  have hd := fun b => pyDispatch_name .float64 (by decide) b m
  unfold npInterpn64
  simp only [hb, hp, hout, hd, ok_bind', error_bind', pure, Except.pure]
  have hgr := pyEach_dtype (ty := NpArray.dtype) (asF64_cases (F32 := F32) (X := X)) gr
  have hob := pyEach_dtype (ty := NpArray.dtype) (asF64_cases (F32 := F32) (X := X)) obsc
  rcases hgr with ⟨_, d, hd⟩ | ⟨_, hd⟩ <;> rw [hd] <;> rcases hob with ⟨_, d', hd'⟩ | ⟨_, hd'⟩ <;>
    rw [hd'] <;> cases assume <;> cases b <;> rfl

/-- C79: grids of any element types are accepted on a regular grid; start and step of each axis are
converted to float64. (Regular: the caller says so, or each grid is uniformly spaced in its own
element type.) -/
theorem C79_grids_regular_f64 (np : Numpy F32 F64 X) (nx : NumpyX X) (fma : Bool)
    (obs : List (List Nat × List F64)) (grids : List (NdArray F32 F64 X)) (vals : List Nat × List F64)
    (m : PyMethod) (lin assume : Bool) (atol : F64) (h1 : obs ≠ []) (h8 : obs.length ≤ 8)
    (h2 : ∀ g ∈ grids, 2 ≤ g.contents.size)
    (hreg : assume = true ∨ ∀ g ∈ grids, g.contents.UniformlySpaced nx) :
    ∃ p : List (F64 × F64),
      List.Forall₂ (fun g q => IsStartStep64 np nx g.contents q.1 q.2) grids p ∧
      npInterpn np nx fma (obs.map NdArray.f64) grids (NdArray.f64 vals) m.name none lin assume false
          atol =
        (pyResult ⟨m.name, true, .float64⟩
          (m.runRegular fma (grids.map fun g => g.contents.size) (p.map Prod.fst) (p.map Prod.snd)
            vals.2 lin (obs.map Prod.snd)
            (List.replicate ((obs.map Prod.snd).headD []).length zero))).map
          fun r => (r.1, NdArray.f64 ((obs.map Prod.fst).headD [], r.2)) := by
  have hg2 : ∀ g ∈ grids.map NdArray.contents, 2 ≤ g.size := by
    intro g hg
    obtain ⟨a, ha, rfl⟩ := List.mem_map.1 hg
    exact h2 a ha
  obtain ⟨b, hb, hbi⟩ := npCheckRegular_cases nx _ hg2
  obtain ⟨p, hp, hf⟩ := startStep_list_f64 np nx _ hg2
  refine ⟨p, by rw [List.forall₂_map_left_iff] at hf; exact hf, ?_⟩
  obtain ⟨o, obs', rfl⟩ : ∃ o obs', obs = o :: obs' := by
    cases obs with
    | nil => exact absurd rfl h1
    | cons o obs' => exact ⟨o, obs', rfl⟩
  have hob : pyEach NpArray.asF64
      (((o :: obs').map (NdArray.f64 (F32 := F32) (X := X))).map NdArray.contents) =
        .ok ((o :: obs').map Prod.snd) := by
    rw [List.map_map, show NdArray.contents ∘ (NdArray.f64 (F32 := F32) (X := X)) =
      NpArray.f64 ∘ Prod.snd from rfl, ← List.map_map]
    exact pyEach_ok (g := NpArray.f64) (fun _ => rfl) _
  have hd := fun b => pyDispatch_name .float64 (by decide) b m
  have hr : (if assume then pure true else npCheckRegular nx true (grids.map NdArray.contents)) =
      (Except.ok true : Except PyExc Bool) := by
    cases assume with
    | true => rfl
    | false =>
      simp only [Bool.false_eq_true, if_false, false_or] at hreg ⊢
      rw [hb, hbi.2]
      intro g hg
      obtain ⟨a, ha, rfl⟩ := List.mem_map.1 hg
      exact hreg a ha
  unfold npInterpn npOutOr
  simp only [List.map_cons, NdArray.f64, NdArray.zerosLike, NpArray.zerosLike, ok_bind']
  simp only [List.map_cons, NdArray.f64] at hob
  have key : npInterpn64 np nx fma
      ((.f64 o.2 : NpArray F32 F64 X) :: (obs'.map NdArray.f64).map NdArray.contents)
      (grids.map NdArray.contents) vals.2 m.name (.f64 (List.replicate o.2.length zero)) lin assume
      false atol =
      pyResult ⟨m.name, true, .float64⟩
          (m.runRegular fma (grids.map fun g => g.contents.size) (p.map Prod.fst) (p.map Prod.snd)
            vals.2 lin (o.2 :: obs'.map Prod.snd) (List.replicate o.2.length zero)) := by
    unfold npInterpn64
    have e : (grids.map NdArray.contents).map NpArray.size = grids.map fun g => g.contents.size := by
      rw [List.map_map]; rfl
    have hout : NpArray.asF64 (.f64 (List.replicate o.2.length zero) : NpArray F32 F64 X) =
      .ok (List.replicate o.2.length zero) := rfl
    have hraw := rawRegular_name m fma (grids.map fun g => g.contents.size) (p.map Prod.fst)
      (p.map Prod.snd) vals.2 lin (o.2 :: obs'.map Prod.snd) (List.replicate o.2.length zero)
      (by simpa using h8)
    cases assume with
    | true =>
      simp only [if_true, pure, Except.pure, ok_bind', hp, e, Bool.false_eq_true, if_false, hd, hob,
        hout, hraw]
      exact pyOfRes_bind _ _
    | false =>
      simp only [Bool.false_eq_true, if_false] at hr
      simp only [if_true, pure, Except.pure, hr, ok_bind', hp, e, Bool.false_eq_true, if_false, hd, hob,
        hout, hraw]
      exact pyOfRes_bind _ _
  rw [key]
  simp only [List.headD_cons]
  generalize m.runRegular (T := F64) fma _ _ _ _ lin _ _ = q
  unfold pyResult
  cases q.1 <;> rfl

/-- C79: on a grid that is not regular, a grid of another element type than the values raises
`TypeError`. -/
theorem C79_grids_rectilinear_f64 (np : Numpy F32 F64 X) (nx : NumpyX X) (fma : Bool)
    (obs grids : List (NdArray F32 F64 X)) (vals : List Nat × List F64) (m : PyMethod)
    (lin checkB : Bool) (atol : F64) (h1 : obs ≠ []) (h2 : ∀ g ∈ grids, 2 ≤ g.contents.size)
    (hreg : ¬ ∀ g ∈ grids, g.contents.UniformlySpaced nx) (hne : ∃ g ∈ grids, g.dtype ≠ .float64) :
    npInterpn np nx fma obs grids (NdArray.f64 vals) m.name none lin false checkB atol =
      .error .typeError := by
  unfold npInterpn npOutOr
  obtain ⟨o, obs', rfl⟩ : ∃ o obs', obs = o :: obs' := by
    cases obs with
    | nil => exact absurd rfl h1
    | cons o obs' => exact ⟨o, obs', rfl⟩
  simp only [ok_bind', NdArray.f64]
  have hg2 : ∀ g ∈ grids.map NdArray.contents, 2 ≤ g.size := by
    intro g hg
    obtain ⟨a, ha, rfl⟩ := List.mem_map.1 hg
    exact h2 a ha
  have hgr : pyEach NpArray.asF64 (grids.map NdArray.contents) = .error .typeError := by
    rcases pyEach_dtype (ty := NpArray.dtype) asF64_cases (grids.map NdArray.contents) with
      ⟨h, _⟩ | ⟨_, h⟩
    · obtain ⟨a, ha, hd⟩ := hne
      exact absurd (h a.contents (List.mem_map.2 ⟨a, ha, rfl⟩)) hd
    · exact h
  obtain ⟨b, hb, hbi⟩ := npCheckRegular_cases nx _ hg2
  have hb' : b = false := by
    cases b with
    | false => rfl
    | true =>
      refine absurd (fun g hg => ?_) hreg
      exact hbi.1 rfl _ (List.mem_map.2 ⟨g, hg, rfl⟩)
  subst hb'
  have hd := fun b => pyDispatch_name .float64 (by decide) b m
  unfold npInterpn64
  simp only [hb, hgr, hd, ok_bind', error_bind', pure, Except.pure]
  cases checkB <;> rfl

/-! #### C78: shapes, float32 -/

/-- C78: on float32 arrays of any shapes, `interpn` does what it does on the flattened arrays (as
described by C49 and C50: same routine, same numbers, same exceptions), and the returned array has
the shape of the first observation array, or that of `out` when `out` is used. -/
theorem C78_interpn_f32 (np : Numpy F32 F64 X) (nx : NumpyX X) (fma : Bool)
    (obs grids : List (List Nat × List F32)) (vals : List Nat × List F32) (meth : String)
    (out : Option (List Nat × List F32)) (lin assume checkB : Bool) (atol : F64) :
    npInterpn np nx fma (obs.map NdArray.f32) (grids.map NdArray.f32) (NdArray.f32 vals) meth
        (out.map NdArray.f32) lin assume checkB atol =
      (pyInterpn fma .float32 (obs.map Prod.snd) (grids.map Prod.snd) vals.2 meth (out.map Prod.snd)
          lin assume checkB (np.f32of64 atol)).map
        fun r => (r.1, NdArray.f32 (returnShape obs out, r.2)) := by
  unfold npInterpn
  rw [npOutOr_f32]
  cases ho : pyOut (out.map Prod.snd) (obs.map Prod.snd) with
  | error e =>
    have : pyInterpn fma .float32 (obs.map Prod.snd) (grids.map Prod.snd) vals.2 meth
        (out.map Prod.snd) lin assume checkB (np.f32of64 atol) = .error e := by
      unfold pyInterpn; rw [ho]; rfl
    rw [this]; rfl
  | ok o =>
    have h := npInterpn32_eq np nx fma (obs.map Prod.snd) (grids.map Prod.snd) vals.2 o o
      (out.map Prod.snd) meth lin assume checkB atol ho rfl
    rw [← h]
    simp only [Except.map, ok_bind']
    have e1 : (obs.map (NdArray.f32 (F64 := F64) (X := X))).map NdArray.contents =
        (obs.map Prod.snd).map .f32 := by rw [List.map_map, List.map_map]; rfl
    have e2 : (grids.map (NdArray.f32 (F64 := F64) (X := X))).map NdArray.contents =
        (grids.map Prod.snd).map .f32 := by rw [List.map_map, List.map_map]; rfl
    rw [e1, e2]
    simp only [NdArray.f32]
    cases npInterpn32 np nx fma ((obs.map Prod.snd).map .f32) ((grids.map Prod.snd).map .f32) vals.2
      meth (.f32 o) lin assume checkB atol with
    | error e => rfl
    | ok r => rfl

/-- C78: the returned array has as many entries as its shape says, provided the arrays given do. -/
theorem C78_wellshaped_f32 (np : Numpy F32 F64 X) (nx : NumpyX X) (fma : Bool)
    (obs grids : List (List Nat × List F32)) (vals : List Nat × List F32) (meth : String)
    (out : Option (List Nat × List F32)) (lin assume checkB : Bool) (atol : F64)
    (hobs : ∀ a ∈ obs, a.2.length = a.1.prod) (hout : ∀ a ∈ out, a.2.length = a.1.prod)
    (call : RawCall) (r : NdArray F32 F64 X)
    (h : npInterpn np nx fma (obs.map NdArray.f32) (grids.map NdArray.f32) (NdArray.f32 vals) meth
      (out.map NdArray.f32) lin assume checkB atol = .ok (call, r)) :
    r.dtype = .float32 ∧ r.WellShaped := by
  rw [C78_interpn_f32] at h
  cases hp : pyInterpn fma .float32 (obs.map Prod.snd) (grids.map Prod.snd) vals.2 meth
      (out.map Prod.snd) lin assume checkB (np.f32of64 atol) with
  | error e => rw [hp] at h; cases h
  | ok q =>
    rw [hp] at h
    obtain ⟨out', ho, hl⟩ := pyInterpn_length (r := q.2) (call := q.1) hp
    cases h
    refine ⟨rfl, ?_⟩
    unfold NdArray.WellShaped NdArray.f32 NpArray.size returnShape
    simp only [hl]
    rcases out with _ | ⟨sh, _ | ⟨v, _ | ⟨w, l⟩⟩⟩
    · cases obs with
      | nil => cases ho
      | cons o obs => cases ho; simpa using hobs o (by simp)
    · cases obs with
      | nil => cases ho
      | cons o obs => cases ho; simpa using hobs o (by simp)
    · simp only [Option.map_some, pyOut] at ho
      simp only
      split
      · rename_i hv
        rw [if_pos hv] at ho
        cases obs with
        | nil => cases ho
        | cons o obs => cases ho; simpa using hobs o (by simp)
      · rename_i hv
        rw [if_neg hv] at ho
        cases ho
        exact hout _ rfl
    · cases ho

/-! #### C79: element types, float32 -/

/-- C79: float32 values with an observation array of another element type raise `TypeError`, on
regular and rectilinear grids, for any shapes, with and without bounds check. -/
theorem C79_obs_f32 (np : Numpy F32 F64 X) (nx : NumpyX X) (fma : Bool)
    (obs grids : List (NdArray F32 F64 X)) (vals : List Nat × List F32) (m : PyMethod)
    (lin assume checkB : Bool) (atol : F64) (h2 : ∀ g ∈ grids, 2 ≤ g.contents.size)
    (hne : ∃ a ∈ obs, a.dtype ≠ .float32) :
    npInterpn np nx fma obs grids (NdArray.f32 vals) m.name none lin assume checkB atol =
      .error .typeError := by
  unfold npInterpn npOutOr
  obtain ⟨o, obs', rfl⟩ : ∃ o obs', obs = o :: obs' := by
    cases obs with
    | nil => obtain ⟨a, ha, _⟩ := hne; simp at ha
    | cons o obs' => exact ⟨o, obs', rfl⟩
  simp only [ok_bind', NdArray.f32]
  have hg2 : ∀ g ∈ grids.map NdArray.contents, 2 ≤ g.size := by
    intro g hg
    obtain ⟨a, ha, rfl⟩ := List.mem_map.1 hg
    exact h2 a ha
  have hobs : pyEach NpArray.asF32 ((o :: obs').map NdArray.contents) = .error .typeError := by
    rcases pyEach_dtype (ty := NpArray.dtype) asF32_cases ((o :: obs').map NdArray.contents) with
      ⟨h, _⟩ | ⟨_, h⟩
    · obtain ⟨a, ha, hd⟩ := hne
      exact absurd (h a.contents (List.mem_map.2 ⟨a, ha, rfl⟩)) hd
    · exact h
  generalize (o :: obs').map NdArray.contents = obsc at hobs
  generalize grids.map NdArray.contents = gr at hg2
  obtain ⟨b, hb, -⟩ := npCheckRegular_cases nx gr hg2
  obtain ⟨p, hp, -⟩ := startStep_list_f32 np nx gr hg2
  have hd := fun b => pyDispatch_name .float32 (by decide) b m
  unfold npInterpn32
  simp only [hb, hp, hobs, hd, ok_bind', error_bind', pure, Except.pure]
  have hgr := pyEach_dtype (ty := NpArray.dtype) (asF32_cases (F64 := F64) (X := X)) gr
  rcases hgr with ⟨_, d, hd⟩ | ⟨_, hd⟩ <;> rw [hd] <;>
    cases assume <;> cases b <;> cases checkB <;> rfl

/-- C79: a given `out` that is used (one entry, non-zero) must have the element type of the values,
too. -/
theorem C79_out_f32 (np : Numpy F32 F64 X) (nx : NumpyX X) (fma : Bool)
    (obs grids : List (NdArray F32 F64 X)) (vals : List Nat × List F32) (m : PyMethod)
    (out : NdArray F32 F64 X) (lin assume : Bool) (atol : F64)
    (h2 : ∀ g ∈ grids, 2 ≤ g.contents.size)
    (hused : out.contents.truth np nx = .ok true) (hne : out.dtype ≠ .float32) :
    npInterpn np nx fma obs grids (NdArray.f32 vals) m.name (some out) lin assume false atol =
      .error .typeError := by
  unfold npInterpn npOutOr
  simp only [hused, ok_bind', NdArray.f32, if_true]
  have hg2 : ∀ g ∈ grids.map NdArray.contents, 2 ≤ g.size := by
    intro g hg
    obtain ⟨a, ha, rfl⟩ := List.mem_map.1 hg
    exact h2 a ha
  have hout : out.contents.asF32 = .error .typeError := by
    rcases asF32_cases out.contents with ⟨h, _⟩ | ⟨_, h⟩
    · exact absurd h hne
    · exact h
  generalize obs.map NdArray.contents = obsc
  generalize grids.map NdArray.contents = gr at hg2
  obtain ⟨b, hb, -⟩ := npCheckRegular_cases nx gr hg2
  obtain ⟨p, hp, -⟩ := startStep_list_f32 np nx gr hg2
  have hd := fun b => pyDispatch_name .float32 (by decide) b m
  unfold npInterpn32
  simp only [hb, hp, hout, hd, ok_bind', error_bind', pure, Except.pure]
  have hgr := pyEach_dtype (ty := NpArray.dtype) (asF32_cases (F64 := F64) (X := X)) gr
  have hob := pyEach_dtype (ty := NpArray.dtype) (asF32_cases (F64 := F64) (X := X)) obsc
  rcases hgr with ⟨_, d, hd⟩ | ⟨_, hd⟩ <;> rw [hd] <;> rcases hob with ⟨_, d', hd'⟩ | ⟨_, hd'⟩ <;>
    rw [hd'] <;> cases assume <;> cases b <;> rfl

/-- C79: grids of any element types are accepted on a regular grid; start and step of each axis are
converted to float32. (Regular: the caller says so, or each grid is uniformly spaced in its own
element type.) -/
theorem C79_grids_regular_f32 (np : Numpy F32 F64 X) (nx : NumpyX X) (fma : Bool)
    (obs : List (List Nat × List F32)) (grids : List (NdArray F32 F64 X)) (vals : List Nat × List F32)
    (m : PyMethod) (lin assume : Bool) (atol : F64) (h1 : obs ≠ []) (h8 : obs.length ≤ 8)
    (h2 : ∀ g ∈ grids, 2 ≤ g.contents.size)
    (hreg : assume = true ∨ ∀ g ∈ grids, g.contents.UniformlySpaced nx) :
    ∃ p : List (F32 × F32),
      List.Forall₂ (fun g q => IsStartStep32 np nx g.contents q.1 q.2) grids p ∧
      npInterpn np nx fma (obs.map NdArray.f32) grids (NdArray.f32 vals) m.name none lin assume false
          atol =
        (pyResult ⟨m.name, true, .float32⟩
          (m.runRegular fma (grids.map fun g => g.contents.size) (p.map Prod.fst) (p.map Prod.snd)
            vals.2 lin (obs.map Prod.snd)
            (List.replicate ((obs.map Prod.snd).headD []).length zero))).map
          fun r => (r.1, NdArray.f32 ((obs.map Prod.fst).headD [], r.2)) := by
  have hg2 : ∀ g ∈ grids.map NdArray.contents, 2 ≤ g.size := by
    intro g hg
    obtain ⟨a, ha, rfl⟩ := List.mem_map.1 hg
    exact h2 a ha
  obtain ⟨b, hb, hbi⟩ := npCheckRegular_cases nx _ hg2
  obtain ⟨p, hp, hf⟩ := startStep_list_f32 np nx _ hg2
  refine ⟨p, by rw [List.forall₂_map_left_iff] at hf; exact hf, ?_⟩
  obtain ⟨o, obs', rfl⟩ : ∃ o obs', obs = o :: obs' := by
    cases obs with
    | nil => exact absurd rfl h1
    | cons o obs' => exact ⟨o, obs', rfl⟩
  have hob : pyEach NpArray.asF32
      (((o :: obs').map (NdArray.f32 (F64 := F64) (X := X))).map NdArray.contents) =
        .ok ((o :: obs').map Prod.snd) := by
    rw [List.map_map, show NdArray.contents ∘ (NdArray.f32 (F64 := F64) (X := X)) =
      NpArray.f32 ∘ Prod.snd from rfl, ← List.map_map]
    exact pyEach_ok (g := NpArray.f32) (fun _ => rfl) _
  have hd := fun b => pyDispatch_name .float32 (by decide) b m
  have hr : (if assume then pure true else npCheckRegular nx true (grids.map NdArray.contents)) =
      (Except.ok true : Except PyExc Bool) := by
    cases assume with
    | true => rfl
    | false =>
      simp only [Bool.false_eq_true, if_false, false_or] at hreg ⊢
      rw [hb, hbi.2]
      intro g hg
      obtain ⟨a, ha, rfl⟩ := List.mem_map.1 hg
      exact hreg a ha
  unfold npInterpn npOutOr
  simp only [List.map_cons, NdArray.f32, NdArray.zerosLike, NpArray.zerosLike, ok_bind']
  simp only [List.map_cons, NdArray.f32] at hob
  have key : npInterpn32 np nx fma
      ((.f32 o.2 : NpArray F32 F64 X) :: (obs'.map NdArray.f32).map NdArray.contents)
      (grids.map NdArray.contents) vals.2 m.name (.f32 (List.replicate o.2.length zero)) lin assume
      false atol =
      pyResult ⟨m.name, true, .float32⟩
          (m.runRegular fma (grids.map fun g => g.contents.size) (p.map Prod.fst) (p.map Prod.snd)
            vals.2 lin (o.2 :: obs'.map Prod.snd) (List.replicate o.2.length zero)) := by
    unfold npInterpn32
    have e : (grids.map NdArray.contents).map NpArray.size = grids.map fun g => g.contents.size := by
      rw [List.map_map]; rfl
    have hout : NpArray.asF32 (.f32 (List.replicate o.2.length zero) : NpArray F32 F64 X) =
      .ok (List.replicate o.2.length zero) := rfl
    have hraw := rawRegular_name m fma (grids.map fun g => g.contents.size) (p.map Prod.fst)
      (p.map Prod.snd) vals.2 lin (o.2 :: obs'.map Prod.snd) (List.replicate o.2.length zero)
      (by simpa using h8)
    cases assume with
    | true =>
      simp only [if_true, pure, Except.pure, ok_bind', hp, e, Bool.false_eq_true, if_false, hd, hob,
        hout, hraw]
      exact pyOfRes_bind _ _
    | false =>
      simp only [Bool.false_eq_true, if_false] at hr
      simp only [if_true, pure, Except.pure, hr, ok_bind', hp, e, Bool.false_eq_true, if_false, hd, hob,
        hout, hraw]
      exact pyOfRes_bind _ _
  rw [key]
  simp only [List.headD_cons]
  generalize m.runRegular (T := F32) fma _ _ _ _ lin _ _ = q
  unfold pyResult
  cases q.1 <;> rfl

/-- C79: on a grid that is not regular, a grid of another element type than the values raises
`TypeError`. -/
theorem C79_grids_rectilinear_f32 (np : Numpy F32 F64 X) (nx : NumpyX X) (fma : Bool)
    (obs grids : List (NdArray F32 F64 X)) (vals : List Nat × List F32) (m : PyMethod)
    (lin checkB : Bool) (atol : F64) (h1 : obs ≠ []) (h2 : ∀ g ∈ grids, 2 ≤ g.contents.size)
    (hreg : ¬ ∀ g ∈ grids, g.contents.UniformlySpaced nx) (hne : ∃ g ∈ grids, g.dtype ≠ .float32) :
    npInterpn np nx fma obs grids (NdArray.f32 vals) m.name none lin false checkB atol =
      .error .typeError := by
  unfold npInterpn npOutOr
  obtain ⟨o, obs', rfl⟩ : ∃ o obs', obs = o :: obs' := by
    cases obs with
    | nil => exact absurd rfl h1
    | cons o obs' => exact ⟨o, obs', rfl⟩
  simp only [ok_bind', NdArray.f32]
  have hg2 : ∀ g ∈ grids.map NdArray.contents, 2 ≤ g.size := by
    intro g hg
    obtain ⟨a, ha, rfl⟩ := List.mem_map.1 hg
    exact h2 a ha
  have hgr : pyEach NpArray.asF32 (grids.map NdArray.contents) = .error .typeError := by
    rcases pyEach_dtype (ty := NpArray.dtype) asF32_cases (grids.map NdArray.contents) with
      ⟨h, _⟩ | ⟨_, h⟩
    · obtain ⟨a, ha, hd⟩ := hne
      exact absurd (h a.contents (List.mem_map.2 ⟨a, ha, rfl⟩)) hd
    · exact h
  obtain ⟨b, hb, hbi⟩ := npCheckRegular_cases nx _ hg2
  have hb' : b = false := by
    cases b with
    | false => rfl
    | true =>
      refine absurd (fun g hg => ?_) hreg
      exact hbi.1 rfl _ (List.mem_map.2 ⟨g, hg, rfl⟩)
  subst hb'
  have hd := fun b => pyDispatch_name .float32 (by decide) b m
  unfold npInterpn32
  simp only [hb, hgr, hd, ok_bind', error_bind', pure, Except.pure]
  cases checkB <;> rfl

/-- C79: values of another element type than float32 and float64 raise `AssertionError`. -/
theorem C79_values (np : Numpy F32 F64 X) (nx : NumpyX X) (fma : Bool)
    (obs grids : List (NdArray F32 F64 X)) (vals : NdArray F32 F64 X) (meth : String)
    (lin assume checkB : Bool) (atol : F64) (h1 : obs ≠ []) (hv : vals.dtype = .other) :
    npInterpn np nx fma obs grids vals meth none lin assume checkB atol =
      .error (.assertionError "`interpn` defined only for float32 and float64 data") := by
  unfold npInterpn npOutOr
  cases obs with
  | nil => exact absurd rfl h1
  | cons o obs' =>
    rcases vals with ⟨sh, d | d | d⟩
    · cases hv
    · cases hv
    · rfl

/-! #### C80: classes -/

section
variable (np : Numpy F32 F64 X) (fma : Bool)

/-- C80: on one-dimensional arrays a class evaluates as described by C59 and C60, and returns an
array of the shape of the first observation array, or of the output array if one is given. -/
theorem C80_regular_one_dim (m : RegularObj F32 F64) (obs : List (NdArray F32 F64 X))
    (out : Option (NdArray F32 F64 X)) (h1 : obs ≠ [])
    (ho : ∀ a ∈ obs, ∃ n, a.shape = [n]) (hout : ∀ a ∈ out, ∃ n, a.shape = [n]) :
    m.evalNd np fma obs out =
      (m.eval np fma (obs.map NdArray.contents) (out.map NdArray.contents)).map
        fun r => ⟨(out.map NdArray.shape).getD ((obs.map NdArray.shape).headD []), r⟩ := by
  obtain ⟨o, obs', rfl⟩ : ∃ o obs', obs = o :: obs' := by
    cases obs with
    | nil => exact absurd rfl h1
    | cons o obs' => exact ⟨o, obs', rfl⟩
  have hall : (o :: obs').all NdArray.oneDim = true := by
    rw [List.all_eq_true]
    intro a ha
    obtain ⟨n, hn⟩ := ho a ha
    simp [NdArray.oneDim, hn]
  unfold RegularObj.evalNd
  cases out with
  | none =>
    obtain ⟨n, hn⟩ := ho o (by simp)
    have : (o.zerosLike np).oneDim = true := by simp [NdArray.oneDim, NdArray.zerosLike, hn]
    simp only [ndOut, ok_bind', hall, this, Bool.and_self, if_true]
    have e : m.eval np fma ((o :: obs').map NdArray.contents) (some (o.zerosLike np).contents) =
        m.eval np fma ((o :: obs').map NdArray.contents) none := rfl
    rw [e]
    simp only [Option.map_none]
    cases m.eval np fma ((o :: obs').map NdArray.contents) none <;> rfl
  | some a =>
    obtain ⟨n, hn⟩ := hout a rfl
    have : a.oneDim = true := by simp [NdArray.oneDim, hn]
    simp only [ndOut, ok_bind', hall, this, Bool.and_self, if_true, Option.map_some]
    cases m.eval np fma ((o :: obs').map NdArray.contents) (some a.contents) <;> rfl

/-- C80: an observation or output array with another number of axes raises `TypeError`, although the
documentation of `eval` allows observation arrays of any shape. -/
theorem C80_regular_type_error (m : RegularObj F32 F64)
    (hd : ∀ d ∈ m.dims, 0 ≤ d ∧ d ≤ (usizeMax : Int)) (obs : List (NdArray F32 F64 X))
    (out : Option (NdArray F32 F64 X)) (h1 : obs ≠ [])
    (h : (∃ a ∈ obs, a.shape.length ≠ 1) ∨ ∃ a ∈ out, a.shape.length ≠ 1) :
    m.evalNd np fma obs out = .error .typeError := by
  obtain ⟨ds, hds⟩ : ∃ ds, pyEach pyUsize m.dims = .ok ds := by
    rcases pyEach_cases (fun z (_ : z ∈ m.dims) => pyUsize_cases z) with h | h
    · exact h
    · exfalso
      obtain ⟨ds, e⟩ : ∃ ds : List Nat, m.dims = ds.map fun d : Nat => (d : Int) :=
        ⟨m.dims.map Int.toNat, by
          rw [List.map_map]
          symm
          rw [List.map_congr_left (g := id), List.map_id]
          intro a ha
          have := (hd a ha).1
          simp [this]⟩
      rw [e, pyEach_pyUsize] at h
      · cases h
      · intro d hd'
        have := (hd d (by rw [e]; exact List.mem_map.2 ⟨d, hd', rfl⟩)).2
        omega
  obtain ⟨o, obs', rfl⟩ : ∃ o obs', obs = o :: obs' := by
    cases obs with
    | nil => exact absurd rfl h1
    | cons o obs' => exact ⟨o, obs', rfl⟩
  unfold RegularObj.evalNd
  obtain ⟨a, ha, hbad⟩ : ∃ a, ndOut np (o :: obs') out = .ok a ∧
      ((o :: obs').all NdArray.oneDim && a.oneDim) = false := by
    have hall : (∃ a ∈ o :: obs', a.shape.length ≠ 1) → (o :: obs').all NdArray.oneDim = false := by
      rintro ⟨a, ha, hn⟩
      rw [← Bool.not_eq_true, List.all_eq_true]
      intro h
      have := h a ha
      simp [NdArray.oneDim] at this
      exact hn this
    cases out with
    | none =>
      refine ⟨_, rfl, ?_⟩
      rcases h with h | ⟨a, ha, _⟩
      · rw [hall h]; rfl
      · cases ha
    | some a =>
      refine ⟨_, rfl, ?_⟩
      rcases h with h | ⟨a, ha, hn⟩
      · rw [hall h]; rfl
      · cases ha
        simp [NdArray.oneDim, hn]
  rw [ha]
  simp only [ok_bind', hbad, Bool.false_eq_true, if_false, hds]

/-- C80, rectilinear grids: on one-dimensional arrays a class evaluates as described by C59 and C60, and returns an
array of the shape of the first observation array, or of the output array if one is given. -/
theorem C80_rectilinear_one_dim (m : RectilinearObj F32 F64) (obs : List (NdArray F32 F64 X))
    (out : Option (NdArray F32 F64 X)) (h1 : obs ≠ [])
    (ho : ∀ a ∈ obs, ∃ n, a.shape = [n]) (hout : ∀ a ∈ out, ∃ n, a.shape = [n]) :
    m.evalNd np fma obs out =
      (m.eval np fma (obs.map NdArray.contents) (out.map NdArray.contents)).map
        fun r => ⟨(out.map NdArray.shape).getD ((obs.map NdArray.shape).headD []), r⟩ := by
  obtain ⟨o, obs', rfl⟩ : ∃ o obs', obs = o :: obs' := by
    cases obs with
    | nil => exact absurd rfl h1
    | cons o obs' => exact ⟨o, obs', rfl⟩
  have hall : (o :: obs').all NdArray.oneDim = true := by
    rw [List.all_eq_true]
    intro a ha
    obtain ⟨n, hn⟩ := ho a ha
    simp [NdArray.oneDim, hn]
  unfold RectilinearObj.evalNd
  cases out with
  | none =>
    obtain ⟨n, hn⟩ := ho o (by simp)
    have : (o.zerosLike np).oneDim = true := by simp [NdArray.oneDim, NdArray.zerosLike, hn]
    simp only [ndOut, ok_bind', hall, this, Bool.and_self, if_true]
    have e : m.eval np fma ((o :: obs').map NdArray.contents) (some (o.zerosLike np).contents) =
        m.eval np fma ((o :: obs').map NdArray.contents) none := rfl
    rw [e]
    simp only [Option.map_none]
    cases m.eval np fma ((o :: obs').map NdArray.contents) none <;> rfl
  | some a =>
    obtain ⟨n, hn⟩ := hout a rfl
    have : a.oneDim = true := by simp [NdArray.oneDim, hn]
    simp only [ndOut, ok_bind', hall, this, Bool.and_self, if_true, Option.map_some]
    cases m.eval np fma ((o :: obs').map NdArray.contents) (some a.contents) <;> rfl

/-- C80, rectilinear grids: an observation or output array with another number of axes raises `TypeError`, although the
documentation of `eval` allows observation arrays of any shape. -/
theorem C80_rectilinear_type_error (m : RectilinearObj F32 F64)
    (obs : List (NdArray F32 F64 X)) (out : Option (NdArray F32 F64 X)) (h1 : obs ≠ [])
    (h : (∃ a ∈ obs, a.shape.length ≠ 1) ∨ ∃ a ∈ out, a.shape.length ≠ 1) :
    m.evalNd np fma obs out = .error .typeError := by
  obtain ⟨o, obs', rfl⟩ : ∃ o obs', obs = o :: obs' := by
    cases obs with
    | nil => exact absurd rfl h1
    | cons o obs' => exact ⟨o, obs', rfl⟩
  unfold RectilinearObj.evalNd
  obtain ⟨a, ha, hbad⟩ : ∃ a, ndOut np (o :: obs') out = .ok a ∧
      ((o :: obs').all NdArray.oneDim && a.oneDim) = false := by
    have hall : (∃ a ∈ o :: obs', a.shape.length ≠ 1) → (o :: obs').all NdArray.oneDim = false := by
      rintro ⟨a, ha, hn⟩
      rw [← Bool.not_eq_true, List.all_eq_true]
      intro h
      have := h a ha
      simp [NdArray.oneDim] at this
      exact hn this
    cases out with
    | none =>
      refine ⟨_, rfl, ?_⟩
      rcases h with h | ⟨a, ha, _⟩
      · rw [hall h]; rfl
      · cases ha
    | some a =>
      refine ⟨_, rfl, ?_⟩
      rcases h with h | ⟨a, ha, hn⟩
      · rw [hall h]; rfl
      · cases ha
        simp [NdArray.oneDim, hn]
  rw [ha]
  simp only [ok_bind', hbad, Bool.false_eq_true, if_false]

end

/-- C80: the bounds check of the classes takes observation arrays of any shapes (regular grids of
float64), with the result described by C61. -/
theorem C80_check_bounds_regular_f64 {N : Nat} (np : Numpy F32 F64 X) (kind : ClassKind) (h8 : N ≤ 8)
    (dims : Fin N → Nat) (starts steps : Fin N → F64) (vals : List F64)
    (hu : ∀ k, dims k ≤ usizeMax) (hd : ∀ k, 1 ≤ dims k) (last : Fin N → F64)
    (hlast : ∀ k, ofUsize (dims k - 1) = some (last k)) (shapes : Fin N → List Nat)
    (obs : Fin N → List F64) (atol : F64) :
    ∃ flags : Fin N → Bool,
      RegularObj.checkBoundsNd np (F32 := F32)
        ⟨kind, (List.ofFn dims).map fun d : Nat => (d : Int), .f64 (List.ofFn starts),
          .f64 (List.ofFn steps), .f64 vals⟩
        (List.ofFn fun k => NdArray.f64 (shapes k, obs k)) atol = .ok (List.ofFn flags) ∧
      ∀ k, flags k = true ↔ ∃ x ∈ obs k,
        ((x -. fmin (starts k) (starts k +. steps k *. last k)) <=. (-. atol)) = true ∨
        (atol <=. (x -. fmax (starts k) (starts k +. steps k *. last k))) = true := by
  have h := C61_regular_f64 (F32 := F32) np kind h8 dims starts steps vals hu hd last hlast obs atol
  have e : (List.ofFn fun k => NdArray.f64 (F32 := F32) (X := X) (shapes k, obs k)).map
      NdArray.contents = (List.ofFn obs).map .f64 := by
    rw [List.map_ofFn, List.map_ofFn]; rfl
  unfold RegularObj.checkBoundsNd
  rw [e]
  exact h

/-- C80, rectilinear grids of float64. -/
theorem C80_check_bounds_rectilinear_f64 {N : Nat} (np : Numpy F32 F64 X) (kind : ClassKind)
    (h8 : N ≤ 8) (grids : Fin N → List F64) (vals : List F64) (hg : ∀ k, grids k ≠ [])
    (shapes : Fin N → List Nat) (obs : Fin N → List F64) (atol : F64) :
    ∃ flags : Fin N → Bool,
      RectilinearObj.checkBoundsNd np (F32 := F32)
        ⟨kind, (List.ofFn grids).map .f64, .f64 vals⟩
        (List.ofFn fun k => NdArray.f64 (shapes k, obs k)) atol = .ok (List.ofFn flags) ∧
      ∀ k, flags k = true ↔ ∃ x ∈ obs k,
        ((x -. (grids k).head (hg k)) <=. (-. atol)) = true ∨
        (atol <=. (x -. (grids k).getLast (hg k))) = true := by
  have h := C61_rectilinear_f64 (F32 := F32) np kind h8 grids vals hg obs atol
  have e : (List.ofFn fun k => NdArray.f64 (F32 := F32) (X := X) (shapes k, obs k)).map
      NdArray.contents = (List.ofFn obs).map .f64 := by
    rw [List.map_ofFn, List.map_ofFn]; rfl
  unfold RectilinearObj.checkBoundsNd
  rw [e]
  exact h

/-- C59 and C61: more than 8 observation arrays raise `PanicException`, in the evaluation and in the
bounds check (regular grids of float64). -/
theorem C59_too_many_regular_f64 (np : Numpy F32 F64 X) (fma : Bool) (kind : ClassKind)
    (dims : List Nat) (starts steps vals : List F64) (obs : List (List F64))
    (hd : ∀ d ∈ dims, d ≤ usizeMax) (h8 : 8 < obs.length) (out : Option (List F64)) (atol : F64) :
    let m : RegularObj F32 F64 :=
      ⟨kind, dims.map fun d : Nat => (d : Int), .f64 starts, .f64 steps, .f64 vals⟩
    m.eval np fma (obs.map .f64) (out.map .f64) = .error .panicException ∧
      m.checkBounds np (obs.map .f64) atol = .error .panicException := by
  intro m
  have hu8 : unpackOk obs = false := by unfold unpackOk; simpa using h8
  have hobs : pyEach NpArray.asF64 (obs.map (NpArray.f64 (F32 := F32) (X := X))) = .ok obs :=
    pyEach_ok (g := NpArray.f64) (fun _ => rfl) _
  constructor
  · obtain ⟨o, ho⟩ : ∃ o : List F64,
        npOut np (obs.map (NpArray.f64 (F32 := F32) (X := X))) (out.map .f64) = .ok (.f64 o) := by
      cases out with
      | none =>
        cases obs with
        | nil => simp at h8
        | cons a l => exact ⟨_, rfl⟩
      | some a => exact ⟨a, rfl⟩
    unfold RegularObj.eval RegularObj.evalUnchecked
    simp only [ho, ok_bind', m, pyEach_pyUsize hd, Arr.asF64, hobs, NpArray.asF64]
    unfold rawRegular
    rw [hu8]
    rfl
  · unfold RegularObj.checkBounds
    simp only [ok_bind', m, pyEach_pyUsize hd, Arr.asF64, hobs, hu8]
    rfl

/-- C59 and C61, rectilinear grids of float64: the same for more than 8 grids or observation
arrays. -/
theorem C59_too_many_rectilinear_f64 (np : Numpy F32 F64 X) (fma : Bool) (kind : ClassKind)
    (grids : List (List F64)) (vals : List F64) (obs : List (List F64)) (h1 : obs ≠ [])
    (h8 : 8 < grids.length ∨ 8 < obs.length) (out : Option (List F64)) (atol : F64) :
    let m : RectilinearObj F32 F64 := ⟨kind, grids.map .f64, .f64 vals⟩
    m.eval np fma (obs.map .f64) (out.map .f64) = .error .panicException ∧
      m.checkBounds np (obs.map .f64) atol = .error .panicException := by
  intro m
  have hu8 : (unpackOk grids && unpackOk obs) = false := by
    unfold unpackOk
    rcases h8 with h | h <;> simp [h]
  have hobs : pyEach NpArray.asF64 (obs.map (NpArray.f64 (F32 := F32) (X := X))) = .ok obs :=
    pyEach_ok (g := NpArray.f64) (fun _ => rfl) _
  have hgr : pyEach Arr.asF64 (grids.map (Arr.f64 (F32 := F32))) = .ok grids :=
    pyEach_ok (g := Arr.f64) (fun _ => rfl) _
  constructor
  · obtain ⟨o, ho⟩ : ∃ o : List F64,
        npOut np (obs.map (NpArray.f64 (F32 := F32) (X := X))) (out.map .f64) = .ok (.f64 o) := by
      cases out with
      | none =>
        cases obs with
        | nil => exact absurd rfl h1
        | cons a l => exact ⟨_, rfl⟩
      | some a => exact ⟨a, rfl⟩
    unfold RectilinearObj.eval RectilinearObj.evalUnchecked
    simp only [ho, ok_bind', m, hgr, hobs, NpArray.asF64]
    unfold rawRectilinear
    rw [hu8]
    rfl
  · unfold RectilinearObj.checkBounds
    simp only [ok_bind', m, hgr, hobs, hu8]
    rfl

/-- C80: the bounds check of the classes takes observation arrays of any shapes (regular grids of
float32), with the result described by C61. -/
theorem C80_check_bounds_regular_f32 {N : Nat} (np : Numpy F32 F64 X) (kind : ClassKind) (h8 : N ≤ 8)
    (dims : Fin N → Nat) (starts steps : Fin N → F32) (vals : List F32)
    (hu : ∀ k, dims k ≤ usizeMax) (hd : ∀ k, 1 ≤ dims k) (last : Fin N → F32)
    (hlast : ∀ k, ofUsize (dims k - 1) = some (last k)) (shapes : Fin N → List Nat)
    (obs : Fin N → List F32) (atol : F64) :
    ∃ flags : Fin N → Bool,
      RegularObj.checkBoundsNd np (F64 := F64)
        ⟨kind, (List.ofFn dims).map fun d : Nat => (d : Int), .f32 (List.ofFn starts),
          .f32 (List.ofFn steps), .f32 vals⟩
        (List.ofFn fun k => NdArray.f32 (shapes k, obs k)) atol = .ok (List.ofFn flags) ∧
      ∀ k, flags k = true ↔ ∃ x ∈ obs k,
        ((x -. fmin (starts k) (starts k +. steps k *. last k)) <=. (-. (np.f32of64 atol))) = true ∨
        ((np.f32of64 atol) <=. (x -. fmax (starts k) (starts k +. steps k *. last k))) = true := by
  have h := C61_regular_f32 (F64 := F64) np kind h8 dims starts steps vals hu hd last hlast obs atol
  have e : (List.ofFn fun k => NdArray.f32 (F64 := F64) (X := X) (shapes k, obs k)).map
      NdArray.contents = (List.ofFn obs).map .f32 := by
    rw [List.map_ofFn, List.map_ofFn]; rfl
  unfold RegularObj.checkBoundsNd
  rw [e]
  exact h

/-- C80, rectilinear grids of float32. -/
theorem C80_check_bounds_rectilinear_f32 {N : Nat} (np : Numpy F32 F64 X) (kind : ClassKind)
    (h8 : N ≤ 8) (grids : Fin N → List F32) (vals : List F32) (hg : ∀ k, grids k ≠ [])
    (shapes : Fin N → List Nat) (obs : Fin N → List F32) (atol : F64) :
    ∃ flags : Fin N → Bool,
      RectilinearObj.checkBoundsNd np (F64 := F64)
        ⟨kind, (List.ofFn grids).map .f32, .f32 vals⟩
        (List.ofFn fun k => NdArray.f32 (shapes k, obs k)) atol = .ok (List.ofFn flags) ∧
      ∀ k, flags k = true ↔ ∃ x ∈ obs k,
        ((x -. (grids k).head (hg k)) <=. (-. (np.f32of64 atol))) = true ∨
        ((np.f32of64 atol) <=. (x -. (grids k).getLast (hg k))) = true := by
  have h := C61_rectilinear_f32 (F64 := F64) np kind h8 grids vals hg obs atol
  have e : (List.ofFn fun k => NdArray.f32 (F64 := F64) (X := X) (shapes k, obs k)).map
      NdArray.contents = (List.ofFn obs).map .f32 := by
    rw [List.map_ofFn, List.map_ofFn]; rfl
  unfold RectilinearObj.checkBoundsNd
  rw [e]
  exact h

/-- C59 and C61: more than 8 observation arrays raise `PanicException`, in the evaluation and in the
bounds check (regular grids of float32). -/
theorem C59_too_many_regular_f32 (np : Numpy F32 F64 X) (fma : Bool) (kind : ClassKind)
    (dims : List Nat) (starts steps vals : List F32) (obs : List (List F32))
    (hd : ∀ d ∈ dims, d ≤ usizeMax) (h8 : 8 < obs.length) (out : Option (List F32)) (atol : F64) :
    let m : RegularObj F32 F64 :=
      ⟨kind, dims.map fun d : Nat => (d : Int), .f32 starts, .f32 steps, .f32 vals⟩
    m.eval np fma (obs.map .f32) (out.map .f32) = .error .panicException ∧
      m.checkBounds np (obs.map .f32) atol = .error .panicException := by
  intro m
  have hu8 : unpackOk obs = false := by unfold unpackOk; simpa using h8
  have hobs : pyEach NpArray.asF32 (obs.map (NpArray.f32 (F64 := F64) (X := X))) = .ok obs :=
    pyEach_ok (g := NpArray.f32) (fun _ => rfl) _
  constructor
  · obtain ⟨o, ho⟩ : ∃ o : List F32,
        npOut np (obs.map (NpArray.f32 (F64 := F64) (X := X))) (out.map .f32) = .ok (.f32 o) := by
      cases out with
      | none =>
        cases obs with
        | nil => simp at h8
        | cons a l => exact ⟨_, rfl⟩
      | some a => exact ⟨a, rfl⟩
    unfold RegularObj.eval RegularObj.evalUnchecked
    simp only [ho, ok_bind', m, pyEach_pyUsize hd, Arr.asF32, hobs, NpArray.asF32]
    unfold rawRegular
    rw [hu8]
    rfl
  · unfold RegularObj.checkBounds
    simp only [ok_bind', m, pyEach_pyUsize hd, Arr.asF32, hobs, hu8]
    rfl

/-- C59 and C61, rectilinear grids of float32: the same for more than 8 grids or observation
arrays. -/
theorem C59_too_many_rectilinear_f32 (np : Numpy F32 F64 X) (fma : Bool) (kind : ClassKind)
    (grids : List (List F32)) (vals : List F32) (obs : List (List F32)) (h1 : obs ≠ [])
    (h8 : 8 < grids.length ∨ 8 < obs.length) (out : Option (List F32)) (atol : F64) :
    let m : RectilinearObj F32 F64 := ⟨kind, grids.map .f32, .f32 vals⟩
    m.eval np fma (obs.map .f32) (out.map .f32) = .error .panicException ∧
      m.checkBounds np (obs.map .f32) atol = .error .panicException := by
  intro m
  have hu8 : (unpackOk grids && unpackOk obs) = false := by
    unfold unpackOk
    rcases h8 with h | h <;> simp [h]
  have hobs : pyEach NpArray.asF32 (obs.map (NpArray.f32 (F64 := F64) (X := X))) = .ok obs :=
    pyEach_ok (g := NpArray.f32) (fun _ => rfl) _
  have hgr : pyEach Arr.asF32 (grids.map (Arr.f32 (F64 := F64))) = .ok grids :=
    pyEach_ok (g := Arr.f32) (fun _ => rfl) _
  constructor
  · obtain ⟨o, ho⟩ : ∃ o : List F32,
        npOut np (obs.map (NpArray.f32 (F64 := F64) (X := X))) (out.map .f32) = .ok (.f32 o) := by
      cases out with
      | none =>
        cases obs with
        | nil => exact absurd rfl h1
        | cons a l => exact ⟨_, rfl⟩
      | some a => exact ⟨a, rfl⟩
    unfold RectilinearObj.eval RectilinearObj.evalUnchecked
    simp only [ho, ok_bind', m, hgr, hobs, NpArray.asF32]
    unfold rawRectilinear
    rw [hu8]
    rfl
  · unfold RectilinearObj.checkBounds
    simp only [ok_bind', m, hgr, hobs, hu8]
    rfl

/-! #### Concrete cases -/

section
attribute [local instance] ratOps

/-- Integer arithmetic for the other element type. -/
def exNumpyX : NumpyX Int := ⟨fun a b => a - b, fun a b => a == b⟩

/-- C78: observation arrays of shape 2×2 on a regular grid. -/
example : npInterpn exNumpy exNumpyX true
    [.f64 ([2, 2], [0, 1/2, 1, 2]), .f64 ([2, 2], [0, 0, 1, 1])]
    [.f64 ([2], [0, 1]), .f64 ([2], [0, 1])] (.f64 ([2, 2], [1, 2, 3, 4])) "linear" none true false
    false (1/10) =
    .ok (⟨"linear", true, .float64⟩, .f64 ([2, 2], [1, 2, 4, 6])) := by decide +kernel

/-- C78: a used `out` of shape 1×1 keeps its shape (the observation array has none). -/
example : npInterpn exNumpy exNumpyX true [.f32 ([], [1/2])] [.f32 ([3], [0, 1, 3])]
    (.f32 ([3], [1, 2, 5])) "linear" (some (.f32 ([1, 1], [7]))) true false true (1/10) =
    .ok (⟨"linear", false, .float32⟩, .f32 ([1, 1], [3/2])) := by decide +kernel

/-- C79: integer grids with float64 values work if they are regular and not otherwise. -/
example :
    npInterpn exNumpy exNumpyX true [.f64 ([2], [1/2, 3])] [⟨[3], .other [0, 1, 2]⟩]
      (.f64 ([3], [1, 2, 5])) "linear" none true false false (1/10) =
        .ok (⟨"linear", true, .float64⟩, .f64 ([2], [3/2, 8])) ∧
    npInterpn exNumpy exNumpyX true [.f64 ([2], [1/2, 3])] [⟨[3], .other [0, 1, 3]⟩]
      (.f64 ([3], [1, 2, 5])) "linear" none true false false (1/10) = .error .typeError := by
  decide +kernel

/-- C79: other observations, an other `out`, other values. -/
example :
    npInterpn exNumpy exNumpyX true [.f32 ([2], [1/2, 3])] [.f64 ([3], [0, 1, 2])]
      (.f64 ([3], [1, 2, 5])) "nearest" none true false false (1/10) = .error .typeError ∧
    npInterpn exNumpy exNumpyX true [.f64 ([1], [1/2])] [.f64 ([3], [0, 1, 2])]
      (.f64 ([3], [1, 2, 5])) "nearest" (some (.f32 ([1], [1]))) true false false (1/10) =
        .error .typeError ∧
    npInterpn exNumpy exNumpyX true [.f64 ([1], [1/2])] [.f64 ([3], [0, 1, 2])]
      ⟨[3], .other [1, 2, 5]⟩ "nearest" none true false false (1/10) =
      .error (.assertionError "`interpn` defined only for float32 and float64 data") := by
  decide +kernel

/-- C80: the same observations with one and with two axes. -/
example :
    RegularObj.evalNd exNumpy true ⟨.multilinear, [2, 2], .f64 [0, 0], .f64 [1, 1],
      .f64 [1, 2, 3, 4]⟩ [.f64 ([2], [1/2, 1]), .f64 ([2], [1/2, 2])] none =
        .ok (.f64 ([2], [5/2, 5])) ∧
    RegularObj.evalNd exNumpy true ⟨.multilinear, [2, 2], .f64 [0, 0], .f64 [1, 1],
      .f64 [1, 2, 3, 4]⟩ [.f64 ([1, 2], [1/2, 1]), .f64 ([1, 2], [1/2, 2])] none =
        .error .typeError ∧
    RegularObj.checkBoundsNd exNumpy ⟨.multilinear, [2, 2], .f64 [0, 0], .f64 [1, 1],
      .f64 [1, 2, 3, 4]⟩ [.f64 ([1, 2], [1/2, 1]), .f64 ([2, 1], [1/2, 2])] (1/10) =
        .ok [false, true] := by decide +kernel

example :
    RectilinearObj.evalNd exNumpy true ⟨.nearest, [.f64 [0, 1], .f64 [0, 2]],
      .f64 [1, 2, 3, 4]⟩ [.f64 ([2], [1/4, 1]), .f64 ([2], [1/2, 2])] none =
        .ok (.f64 ([2], [1, 4])) ∧
    RectilinearObj.evalNd exNumpy true ⟨.nearest, [.f64 [0, 1], .f64 [0, 2]],
      .f64 [1, 2, 3, 4]⟩ [.f64 ([2], [1/4, 1]), .f64 ([2], [1/2, 2])] (some (.f64 ([1, 2], [0, 0]))) =
        .error .typeError ∧
    RectilinearObj.checkBoundsNd exNumpy ⟨.nearest, [.f64 [0, 1], .f64 [0, 2]],
      .f64 [1, 2, 3, 4]⟩ [.f64 ([], [5]), .f64 ([1, 1], [1/2])] (1/10) =
        .ok [true, false] := by decide +kernel

/-- Nine observation arrays. -/
example : RectilinearObj.checkBounds exNumpy ⟨.nearest, [.f64 [0, 1]], .f64 [1, 2]⟩
    (List.replicate 9 (.f64 [1/2])) (1/10) = .error .panicException := by decide +kernel

end

end Interpn
