import Verif.Spec.PythonShapes
import Verif.Props.PythonClasses

/-! Lemmas about array shapes and element types in the Python interface. The statements ending in
`_f64` and `_f32` are the same for the two element types. -/

set_option autoImplicit false
set_option linter.unusedSectionVars false

namespace Interpn
open FloatOps

/-! #### No call changes the length of the buffer -/

section
variable {T : Type} [FloatOps T]

omit [FloatOps T] in
theorem batchLoop_length (point : Nat → Res T) :
    ∀ (k i : Nat) (out : List T), (batchLoop point k i out).2.length = out.length
  | 0, _, _ => rfl
  | k + 1, i, out => by
    rw [batchLoop]
    split
    · split
      · rw [batchLoop_length point k]; simp
      · rfl
    all_goals rfl

omit [FloatOps T] in
theorem tryOut_length {α : Type} (r : Res α) (out : List T) (f : α → Res Unit × List T)
    (h : ∀ a, (f a).2.length = out.length) : (tryOut r out f).2.length = out.length := by
  unfold tryOut
  split
  · exact h _
  all_goals rfl

theorem MultilinearRegular.interp_length {N : Nat} (fma : Bool) (s : MultilinearRegular T N)
    (x : Fin N → List T) (out : List T) : (s.interp fma x out).2.length = out.length := by
  unfold MultilinearRegular.interp
  simp only
  split
  · rfl
  · exact batchLoop_length _ _ _ _

theorem MultilinearRectilinear.interp_length {N : Nat} (fma : Bool) (s : MultilinearRectilinear T N)
    (x : Fin N → List T) (out : List T) : (s.interp fma x out).2.length = out.length := by
  unfold MultilinearRectilinear.interp
  simp only
  split
  · rfl
  · exact batchLoop_length _ _ _ _

theorem NearestRegular.interp_length {N : Nat} (fma : Bool) (s : NearestRegular T N)
    (x : Fin N → List T) (out : List T) : (s.interp fma x out).2.length = out.length := by
  unfold NearestRegular.interp
  simp only
  split
  · rfl
  · exact batchLoop_length _ _ _ _

theorem NearestRectilinear.interp_length {N : Nat} (s : NearestRectilinear T N)
    (x : Fin N → List T) (out : List T) : (s.interp x out).2.length = out.length := by
  unfold NearestRectilinear.interp
  simp only
  split
  · rfl
  · exact batchLoop_length _ _ _ _

theorem MulticubicRegular.interp_length {N : Nat} (fma : Bool) (s : MulticubicRegular T N)
    (x : Fin N → List T) (out : List T) : (s.interp fma x out).2.length = out.length := by
  unfold MulticubicRegular.interp
  simp only
  split
  · rfl
  · exact batchLoop_length _ _ _ _

theorem MulticubicRectilinear.interp_length {N : Nat} (fma : Bool) (s : MulticubicRectilinear T N)
    (x : Fin N → List T) (out : List T) : (s.interp fma x out).2.length = out.length := by
  unfold MulticubicRectilinear.interp
  simp only
  split
  · rfl
  · exact batchLoop_length _ _ _ _

theorem MultilinearRegularRecursive.interp_length {M : Nat} (fma : Bool) (s : MultilinearRegularRecursive T M)
    (x : List (List T)) (out : List T) : (s.interp fma x out).2.length = out.length := by
  unfold MultilinearRegularRecursive.interp
  simp only
  split
  · rfl
  · split
    · rfl
    · split
      · rfl
      · exact batchLoop_length _ _ _ _

theorem MultilinearRectilinearRecursive.interp_length {M : Nat} (fma : Bool) (s : MultilinearRectilinearRecursive T M)
    (x : List (List T)) (out : List T) : (s.interp fma x out).2.length = out.length := by
  unfold MultilinearRectilinearRecursive.interp
  simp only
  split
  · rfl
  · split
    · rfl
    · split
      · rfl
      · exact batchLoop_length _ _ _ _

theorem MulticubicRegularRecursive.interp_length {M : Nat} (fma : Bool) (s : MulticubicRegularRecursive T M)
    (x : List (List T)) (out : List T) : (s.interp fma x out).2.length = out.length := by
  unfold MulticubicRegularRecursive.interp
  simp only
  split
  · rfl
  · split
    · rfl
    · split
      · rfl
      · exact batchLoop_length _ _ _ _

theorem MulticubicRectilinearRecursive.interp_length {M : Nat} (fma : Bool) (s : MulticubicRectilinearRecursive T M)
    (x : List (List T)) (out : List T) : (s.interp fma x out).2.length = out.length := by
  unfold MulticubicRectilinearRecursive.interp
  simp only
  split
  · rfl
  · split
    · rfl
    · split
      · rfl
      · exact batchLoop_length _ _ _ _

theorem multilinearRegularInterpn_length (fma : Bool) (dims : List Nat) (starts steps : List T) (vals : List T) (obs : List (List T))
    (out : List T) :
    (multilinearRegularInterpn fma dims starts steps vals obs out).2.length = out.length := by
  unfold multilinearRegularInterpn
  simp only
  split
  · rfl
  · split
    all_goals first
      | rfl
      | (unfold linRegularBranch
         exact tryOut_length _ _ _ fun s => tryOut_length _ _ _ fun o => s.interp_length fma o out)
      | exact tryOut_length _ _ _ fun s => s.interp_length fma obs out

theorem multilinearRectilinearInterpn_length (fma : Bool) (grids : List (List T)) (vals : List T) (obs : List (List T))
    (out : List T) :
    (multilinearRectilinearInterpn fma grids vals obs out).2.length = out.length := by
  unfold multilinearRectilinearInterpn
  simp only
  split
  · rfl
  · split
    all_goals first
      | rfl
      | (unfold linRectilinearBranch
         exact tryOut_length _ _ _ fun s => tryOut_length _ _ _ fun o => s.interp_length fma o out)
      | exact tryOut_length _ _ _ fun s => s.interp_length fma obs out

theorem nearestRegularInterpn_length (fma : Bool) (dims : List Nat) (starts steps : List T) (vals : List T) (obs : List (List T))
    (out : List T) :
    (nearestRegularInterpn fma dims starts steps vals obs out).2.length = out.length := by
  unfold nearestRegularInterpn
  simp only
  split
  · rfl
  · split
    all_goals first
      | rfl
      | (unfold nearestRegularBranch
         exact tryOut_length _ _ _ fun s => tryOut_length _ _ _ fun o => s.interp_length fma o out)

theorem nearestRectilinearInterpn_length (grids : List (List T)) (vals : List T) (obs : List (List T))
    (out : List T) :
    (nearestRectilinearInterpn grids vals obs out).2.length = out.length := by
  unfold nearestRectilinearInterpn
  simp only
  split
  · rfl
  · split
    all_goals first
      | rfl
      | (unfold nearestRectilinearBranch
         exact tryOut_length _ _ _ fun s => tryOut_length _ _ _ fun o => s.interp_length o out)

theorem multicubicRegularInterpn_length (fma : Bool) (dims : List Nat) (starts steps : List T) (vals : List T) (lin : Bool) (obs : List (List T))
    (out : List T) :
    (multicubicRegularInterpn fma dims starts steps vals lin obs out).2.length = out.length := by
  unfold multicubicRegularInterpn
  split
  all_goals first
    | rfl
    | (unfold cubRegularBranch
       exact tryOut_length _ _ _ fun s => tryOut_length _ _ _ fun o => s.interp_length fma o out)
    | exact tryOut_length _ _ _ fun s => s.interp_length fma obs out

theorem multicubicRectilinearInterpn_length (fma : Bool) (grids : List (List T)) (vals : List T) (lin : Bool) (obs : List (List T))
    (out : List T) :
    (multicubicRectilinearInterpn fma grids vals lin obs out).2.length = out.length := by
  unfold multicubicRectilinearInterpn
  split
  all_goals first
    | rfl
    | (unfold cubRectilinearBranch
       exact tryOut_length _ _ _ fun s => tryOut_length _ _ _ fun o => s.interp_length fma o out)
    | exact tryOut_length _ _ _ fun s => s.interp_length fma obs out

theorem pyOfRes_length {α : Type} {n : Nat} {p : Res Unit × List α} {r : List α}
    (h : pyOfRes p = .ok r) (hp : p.2.length = n) : r.length = n := by
  unfold pyOfRes at h
  split at h
  · cases h; exact hp
  all_goals cases h

theorem rawRegular_length {fma : Bool} {meth : String} {dims : List Nat} {starts steps vals : List T}
    {lin : Bool} {obs : List (List T)} {out r : List T}
    (h : rawRegular fma meth dims starts steps vals lin obs out = .ok r) :
    r.length = out.length := by
  unfold rawRegular at h
  split_ifs at h
  · exact pyOfRes_length h (multilinearRegularInterpn_length ..)
  · exact pyOfRes_length h (nearestRegularInterpn_length ..)
  · exact pyOfRes_length h (multicubicRegularInterpn_length ..)

theorem rawRectilinear_length {fma : Bool} {meth : String} {grids : List (List T)} {vals : List T}
    {lin : Bool} {obs : List (List T)} {out r : List T}
    (h : rawRectilinear fma meth grids vals lin obs out = .ok r) :
    r.length = out.length := by
  unfold rawRectilinear at h
  split_ifs at h
  · exact pyOfRes_length h (multilinearRectilinearInterpn_length ..)
  · exact pyOfRes_length h (nearestRectilinearInterpn_length ..)
  · exact pyOfRes_length h (multicubicRectilinearInterpn_length ..)

theorem pyInterpn_length {fma : Bool} {dt : Dtype} {obs grids : List (List T)} {vals : List T}
    {meth : String} {out : Option (List T)} {lin assume checkB : Bool} {atol : T}
    {call : RawCall} {r : List T}
    (h : pyInterpn fma dt obs grids vals meth out lin assume checkB atol = .ok (call, r)) :
    ∃ out', pyOut out obs = .ok out' ∧ r.length = out'.length := by
  unfold pyInterpn at h
  cases ho : pyOut out obs with
  | error e => rw [ho] at h; cases h
  | ok out' =>
    refine ⟨out', rfl, ?_⟩
    rw [ho, ok_bind'] at h
    by_cases hdt : dt = .other
    · rw [if_pos hdt] at h; cases h
    rw [if_neg hdt] at h
    have step : ∀ b : Bool,
        ((if b then pyRegularParams grids else pure ([], [], [])) >>= fun p : List Nat × List T × List T =>
          (if checkB then pyCheckBounds b p.1 p.2.1 p.2.2 grids obs atol else pure ()) >>= fun _ =>
          pyDispatch dt b meth >>= fun call =>
          (if b then rawRegular fma call.method p.1 p.2.1 p.2.2 vals lin obs out'
            else rawRectilinear fma call.method grids vals lin obs out') >>= fun o =>
          (pure (call, o) : Except PyExc (RawCall × List T))) = .ok (call, r) →
        r.length = out'.length := by
      intro b h
      generalize (if b then pyRegularParams grids else pure ([], [], [])) = pp at h
      cases pp with
      | error e => cases h
      | ok p =>
        rw [ok_bind'] at h
        generalize (if checkB then pyCheckBounds b p.1 p.2.1 p.2.2 grids obs atol else pure ()) = cc at h
        cases cc with
        | error e => cases h
        | ok c =>
          rw [ok_bind'] at h
          generalize pyDispatch dt b meth = dd at h
          cases dd with
          | error e => cases h
          | ok d =>
            rw [ok_bind'] at h
            cases b with
            | true =>
              rw [if_pos rfl] at h
              cases hr : rawRegular fma d.method p.1 p.2.1 p.2.2 vals lin obs out' with
              | error e => rw [hr] at h; cases h
              | ok o =>
                rw [hr, ok_bind'] at h
                cases h
                exact rawRegular_length hr
            | false =>
              simp only [Bool.false_eq_true, if_false] at h
              cases hr : rawRectilinear fma d.method grids vals lin obs out' with
              | error e => rw [hr] at h; cases h
              | ok o =>
                rw [hr, ok_bind'] at h
                cases h
                exact rawRectilinear_length hr
    cases assume with
    | true =>
      refine step true ?_
      cases checkB <;> exact h
    | false =>
      simp only [Bool.false_eq_true, if_false] at h
      cases hc : checkRegularPy true grids with
      | error e => rw [hc] at h; cases h
      | ok b =>
        rw [hc] at h
        refine step b ?_
        cases b <;> cases checkB <;> exact h

end

variable {F32 F64 X : Type} [FloatOps F32] [FloatOps F64]

/-! #### float64 -/

theorem npCheckRegular_f64 (nx : NumpyX X) : ∀ (acc : Bool) (grids : List (List F64)),
    npCheckRegular nx acc (grids.map (NpArray.f64 (F32 := F32) (X := X))) = checkRegularPy acc grids
  | _, [] => by rw [List.map_nil, npCheckRegular, checkRegularPy]
  | false, g :: grids => by
    rw [List.map_cons, npCheckRegular, checkRegularPy, npCheckRegular_f64 nx false grids]
  | true, g :: grids => by
    rw [List.map_cons, npCheckRegular, checkRegularPy]
    unfold NpArray.uniform
    simp only
    cases npDiff g with
    | nil => rfl
    | cons d ds => simp only [ok_bind', npCheckRegular_f64 nx _ grids]

theorem startStep_f64 (np : Numpy F32 F64 X) (nx : NumpyX X) (grids : List (List F64)) :
    pyRegularParams grids =
      (pyEach (NpArray.startStep64 np nx) (grids.map (NpArray.f64 (F32 := F32) (X := X))) >>= fun p =>
        .ok (grids.map List.length, p.map Prod.fst, p.map Prod.snd)) := by
  induction grids with
  | nil => rfl
  | cons g grids ih =>
    rw [List.map_cons, pyEach]
    cases g with
    | nil => rfl
    | cons a g =>
      cases g with
      | nil => rfl
      | cons b g =>
        rw [pyRegularParams, ih]
        simp only [NpArray.startStep64, ok_bind']
        cases pyEach (NpArray.startStep64 np nx) (grids.map (NpArray.f64 (F32 := F32) (X := X))) <;> rfl

theorem size_f64 (grids : List (List F64)) :
    (grids.map (NpArray.f64 (F32 := F32) (X := X))).map NpArray.size = grids.map List.length := by
  rw [List.map_map]; rfl

/-- `interpn` after the preparations, all arrays float64. -/
theorem npInterpn64_eq (np : Numpy F32 F64 X) (nx : NumpyX X) (fma : Bool)
    (obs grids : List (List F64)) (vals out out' : List F64) (out0 : Option (List F64)) (meth : String)
    (lin assume checkB : Bool) (atol : F64) (ho : pyOut out0 obs = .ok out') (e : out = out') :
    npInterpn64 np nx fma (obs.map .f64) (grids.map .f64) vals meth (.f64 out) lin assume checkB atol =
      pyInterpn fma .float64 obs grids vals meth out0 lin assume checkB atol := by
  subst e
  unfold npInterpn64 pyInterpn
  rw [ho, ok_bind', if_neg (show ¬ Dtype.float64 = .other by decide)]
  have hobs : pyEach NpArray.asF64 (obs.map (NpArray.f64 (F32 := F32) (X := X))) = .ok obs :=
    pyEach_ok (g := NpArray.f64) (fun _ => rfl) _
  have hgr : pyEach NpArray.asF64 (grids.map (NpArray.f64 (F32 := F32) (X := X))) = .ok grids :=
    pyEach_ok (g := NpArray.f64) (fun _ => rfl) _
  have ho' : NpArray.asF64 (NpArray.f64 (F32 := F32) (X := X) out) = .ok out := rfl
  simp only [npCheckRegular_f64, hobs, hgr, ho', ok_bind', size_f64]
  have hs := startStep_f64 np nx grids
  have key : ∀ r : Except PyExc Bool, r = .ok true ∨ r = .ok false ∨ ∃ e, r = .error e := by
    intro r
    rcases r with e | b
    · exact .inr (.inr ⟨e, rfl⟩)
    · cases b
      · exact .inr (.inl rfl)
      · exact .inl rfl
  generalize checkRegularPy true grids = rr
  rw [hs]
  generalize pyEach (NpArray.startStep64 np nx) (grids.map (NpArray.f64 (F32 := F32) (X := X))) = pp
  cases assume with
  | true =>
    simp only [if_true, pure, Except.pure, ok_bind']
    cases pp with
    | error e => rfl
    | ok p =>
      simp only [ok_bind']
      cases checkB with
      | false => rfl
      | true =>
        unfold pyCheckBounds
        simp only [if_true]
        cases unpackOk obs with
        | false => rfl
        | true =>
          simp only [Bool.not_true, Bool.false_eq_true, if_false]
          generalize pyOfRes (checkBoundsRegular _ _ _ obs atol [false]) = q
          cases q with
          | error e => rfl
          | ok fl =>
            simp only [ok_bind']
            cases fl.any id <;> rfl
  | false =>
    simp only [Bool.false_eq_true, if_false, pure, Except.pure]
    rcases key rr with h | h | ⟨e, h⟩ <;> subst h
    · simp only [if_true, ok_bind']
      cases pp with
      | error e => rfl
      | ok p =>
        simp only [ok_bind']
        cases checkB with
        | false => rfl
        | true =>
          unfold pyCheckBounds
          simp only [if_true]
          cases unpackOk obs with
          | false => rfl
          | true =>
            simp only [Bool.not_true, Bool.false_eq_true, if_false]
            generalize pyOfRes (checkBoundsRegular _ _ _ obs atol [false]) = q
            cases q with
            | error e => rfl
            | ok fl =>
              simp only [ok_bind']
              cases fl.any id <;> rfl
    · simp only [Bool.false_eq_true, if_false, ok_bind']
      cases checkB with
      | false => rfl
      | true =>
        unfold pyCheckBounds
        simp only [if_true, Bool.false_eq_true, if_false]
        cases unpackOk grids && unpackOk obs with
        | false => rfl
        | true =>
          simp only [Bool.not_true, Bool.false_eq_true, if_false]
          generalize pyOfRes (checkBoundsRectilinear grids obs atol [false]) = q
          cases q with
          | error e => rfl
          | ok fl =>
            simp only [ok_bind']
            cases fl.any id <;> rfl
    · rfl

theorem npOutOr_f64 (np : Numpy F32 F64 X) (nx : NumpyX X) (out : Option (List Nat × List F64))
    (obs : List (List Nat × List F64)) :
    npOutOr np nx (out.map NdArray.f64) (obs.map NdArray.f64) =
      (pyOut (out.map Prod.snd) (obs.map Prod.snd)).map
        fun r => NdArray.f64 (returnShape obs out, r) := by
  unfold npOutOr
  cases obs with
  | nil =>
    rcases out with _ | ⟨sh, _ | ⟨v, _ | ⟨w, l⟩⟩⟩
    · rfl
    · rfl
    · simp only [Option.map_some, List.map_nil, NdArray.f64, NpArray.truth, ok_bind', pyOut, returnShape]
      cases feq v zero <;> rfl
    · rfl
  | cons o obs =>
    rcases out with _ | ⟨sh, _ | ⟨v, _ | ⟨w, l⟩⟩⟩
    · rfl
    · rfl
    · simp only [Option.map_some, List.map_cons, NdArray.f64, NpArray.truth, ok_bind', pyOut, returnShape]
      cases feq v zero <;> rfl
    · rfl

/-! #### float32 -/

theorem npCheckRegular_f32 (nx : NumpyX X) : ∀ (acc : Bool) (grids : List (List F32)),
    npCheckRegular nx acc (grids.map (NpArray.f32 (F64 := F64) (X := X))) = checkRegularPy acc grids
  | _, [] => by rw [List.map_nil, npCheckRegular, checkRegularPy]
  | false, g :: grids => by
    rw [List.map_cons, npCheckRegular, checkRegularPy, npCheckRegular_f32 nx false grids]
  | true, g :: grids => by
    rw [List.map_cons, npCheckRegular, checkRegularPy]
    unfold NpArray.uniform
    simp only
    cases npDiff g with
    | nil => rfl
    | cons d ds => simp only [ok_bind', npCheckRegular_f32 nx _ grids]

theorem startStep_f32 (np : Numpy F32 F64 X) (nx : NumpyX X) (grids : List (List F32)) :
    pyRegularParams grids =
      (pyEach (NpArray.startStep32 np nx) (grids.map (NpArray.f32 (F64 := F64) (X := X))) >>= fun p =>
        .ok (grids.map List.length, p.map Prod.fst, p.map Prod.snd)) := by
  induction grids with
  | nil => rfl
  | cons g grids ih =>
    rw [List.map_cons, pyEach]
    cases g with
    | nil => rfl
    | cons a g =>
      cases g with
      | nil => rfl
      | cons b g =>
        rw [pyRegularParams, ih]
        simp only [NpArray.startStep32, ok_bind']
        cases pyEach (NpArray.startStep32 np nx) (grids.map (NpArray.f32 (F64 := F64) (X := X))) <;> rfl

theorem size_f32 (grids : List (List F32)) :
    (grids.map (NpArray.f32 (F64 := F64) (X := X))).map NpArray.size = grids.map List.length := by
  rw [List.map_map]; rfl

/-- `interpn` after the preparations, all arrays float32. -/
theorem npInterpn32_eq (np : Numpy F32 F64 X) (nx : NumpyX X) (fma : Bool)
    (obs grids : List (List F32)) (vals out out' : List F32) (out0 : Option (List F32)) (meth : String)
    (lin assume checkB : Bool) (atol : F64) (ho : pyOut out0 obs = .ok out') (e : out = out') :
    npInterpn32 np nx fma (obs.map .f32) (grids.map .f32) vals meth (.f32 out) lin assume checkB atol =
      pyInterpn fma .float32 obs grids vals meth out0 lin assume checkB (np.f32of64 atol) := by
  subst e
  unfold npInterpn32 pyInterpn
  rw [ho, ok_bind', if_neg (show ¬ Dtype.float32 = .other by decide)]
  have hobs : pyEach NpArray.asF32 (obs.map (NpArray.f32 (F64 := F64) (X := X))) = .ok obs :=
    pyEach_ok (g := NpArray.f32) (fun _ => rfl) _
  have hgr : pyEach NpArray.asF32 (grids.map (NpArray.f32 (F64 := F64) (X := X))) = .ok grids :=
    pyEach_ok (g := NpArray.f32) (fun _ => rfl) _
  have ho' : NpArray.asF32 (NpArray.f32 (F64 := F64) (X := X) out) = .ok out := rfl
  simp only [npCheckRegular_f32, hobs, hgr, ho', ok_bind', size_f32]
  have hs := startStep_f32 np nx grids
  have key : ∀ r : Except PyExc Bool, r = .ok true ∨ r = .ok false ∨ ∃ e, r = .error e := by
    intro r
    rcases r with e | b
    · exact .inr (.inr ⟨e, rfl⟩)
    · cases b
      · exact .inr (.inl rfl)
      · exact .inl rfl
  generalize checkRegularPy true grids = rr
  rw [hs]
  generalize pyEach (NpArray.startStep32 np nx) (grids.map (NpArray.f32 (F64 := F64) (X := X))) = pp
  cases assume with
  | true =>
    simp only [if_true, pure, Except.pure, ok_bind']
    cases pp with
    | error e => rfl
    | ok p =>
      simp only [ok_bind']
      cases checkB with
      | false => rfl
      | true =>
        unfold pyCheckBounds
        simp only [if_true]
        cases unpackOk obs with
        | false => rfl
        | true =>
          simp only [Bool.not_true, Bool.false_eq_true, if_false]
          generalize pyOfRes (checkBoundsRegular _ _ _ obs (np.f32of64 atol) [false]) = q
          cases q with
          | error e => rfl
          | ok fl =>
            simp only [ok_bind']
            cases fl.any id <;> rfl
  | false =>
    simp only [Bool.false_eq_true, if_false, pure, Except.pure]
    rcases key rr with h | h | ⟨e, h⟩ <;> subst h
    · simp only [if_true, ok_bind']
      cases pp with
      | error e => rfl
      | ok p =>
        simp only [ok_bind']
        cases checkB with
        | false => rfl
        | true =>
          unfold pyCheckBounds
          simp only [if_true]
          cases unpackOk obs with
          | false => rfl
          | true =>
            simp only [Bool.not_true, Bool.false_eq_true, if_false]
            generalize pyOfRes (checkBoundsRegular _ _ _ obs (np.f32of64 atol) [false]) = q
            cases q with
            | error e => rfl
            | ok fl =>
              simp only [ok_bind']
              cases fl.any id <;> rfl
    · simp only [Bool.false_eq_true, if_false, ok_bind']
      cases checkB with
      | false => rfl
      | true =>
        unfold pyCheckBounds
        simp only [if_true, Bool.false_eq_true, if_false]
        cases unpackOk grids && unpackOk obs with
        | false => rfl
        | true =>
          simp only [Bool.not_true, Bool.false_eq_true, if_false]
          generalize pyOfRes (checkBoundsRectilinear grids obs (np.f32of64 atol) [false]) = q
          cases q with
          | error e => rfl
          | ok fl =>
            simp only [ok_bind']
            cases fl.any id <;> rfl
    · rfl

theorem npOutOr_f32 (np : Numpy F32 F64 X) (nx : NumpyX X) (out : Option (List Nat × List F32))
    (obs : List (List Nat × List F32)) :
    npOutOr np nx (out.map NdArray.f32) (obs.map NdArray.f32) =
      (pyOut (out.map Prod.snd) (obs.map Prod.snd)).map
        fun r => NdArray.f32 (returnShape obs out, r) := by
  unfold npOutOr
  cases obs with
  | nil =>
    rcases out with _ | ⟨sh, _ | ⟨v, _ | ⟨w, l⟩⟩⟩
    · rfl
    · rfl
    · simp only [Option.map_some, List.map_nil, NdArray.f32, NpArray.truth, ok_bind', pyOut, returnShape]
      cases feq v zero <;> rfl
    · rfl
  | cons o obs =>
    rcases out with _ | ⟨sh, _ | ⟨v, _ | ⟨w, l⟩⟩⟩
    · rfl
    · rfl
    · simp only [Option.map_some, List.map_cons, NdArray.f32, NpArray.truth, ok_bind', pyOut, returnShape]
      cases feq v zero <;> rfl
    · rfl

/-! #### Grids of any element type -/

theorem uniform_other_iff {nx : NumpyX X} : ∀ (g : List X), 2 ≤ g.length → ∃ b,
    NpArray.uniform (F32 := F32) (F64 := F64) nx (.other g) = .ok b ∧
      (b = true ↔ (NpArray.other (F32 := F32) (F64 := F64) g).UniformlySpaced nx)
  | [], h | [_], h => by simp at h
  | a :: c :: r, _ => by
    unfold NpArray.uniform
    simp only [List.tail_cons, List.zipWith_cons_cons]
    refine ⟨_, rfl, ?_⟩
    unfold NpArray.UniformlySpaced
    have hz : ∀ (i : Nat) (h : i + 1 < (a :: c :: r).length),
        (nx.sub c a :: List.zipWith (fun a b => nx.sub b a) (c :: r) r)[i]? =
          some (nx.sub (a :: c :: r)[i + 1] (a :: c :: r)[i]) := by
      intro i h
      rw [show nx.sub c a :: List.zipWith (fun a b => nx.sub b a) (c :: r) r =
        List.zipWith (fun a b => nx.sub b a) (a :: c :: r) (c :: r) from rfl]
      rw [List.getElem?_zipWith]
      rw [List.getElem?_eq_getElem (by omega : i < (a :: c :: r).length),
        List.getElem?_eq_getElem (show i < (c :: r).length by simp at h ⊢; omega)]
      rfl
    rw [List.all_eq_true]
    constructor
    · intro h i hi h1
      exact h _ (List.mem_of_getElem? (hz i hi))
    · intro h d hd
      obtain ⟨i, hi, e⟩ := List.getElem_of_mem hd
      have hi' : i + 1 < (a :: c :: r).length := by
        simp at hi ⊢
        omega
      have h2 := hz i hi'
      rw [List.getElem?_eq_getElem hi, e] at h2
      cases h2
      exact h i hi' (by simp)

theorem uniform_cases {nx : NumpyX X} (g : NpArray F32 F64 X) (h2 : 2 ≤ g.size) :
    ∃ b, g.uniform nx = .ok b ∧ (b = true ↔ g.UniformlySpaced nx) := by
  cases g with
  | f64 g =>
    have h2 : 2 ≤ g.length := h2
    unfold NpArray.uniform NpArray.UniformlySpaced
    simp only
    cases hd : npDiff g with
    | nil => have := npDiff_length g; rw [hd] at this; simp at this; omega
    | cons d0 ds => exact ⟨_, rfl, uniform_iff g h2 d0 ds hd⟩
  | f32 g =>
    have h2 : 2 ≤ g.length := h2
    unfold NpArray.uniform NpArray.UniformlySpaced
    simp only
    cases hd : npDiff g with
    | nil => have := npDiff_length g; rw [hd] at this; simp at this; omega
    | cons d0 ds => exact ⟨_, rfl, uniform_iff g h2 d0 ds hd⟩
  | other g => exact uniform_other_iff g h2

theorem npCheckRegular_false (nx : NumpyX X) (grids : List (NpArray F32 F64 X)) :
    npCheckRegular nx false grids = .ok false := by
  induction grids with
  | nil => rfl
  | cons g grids ih => rw [npCheckRegular, ih]

theorem npCheckRegular_cases (nx : NumpyX X) (grids : List (NpArray F32 F64 X))
    (h2 : ∀ g ∈ grids, 2 ≤ g.size) :
    ∃ b, npCheckRegular nx true grids = .ok b ∧ (b = true ↔ ∀ g ∈ grids, g.UniformlySpaced nx) := by
  induction grids with
  | nil => exact ⟨true, rfl, by simp⟩
  | cons g grids ih =>
    obtain ⟨b, hb, hbi⟩ := uniform_cases (nx := nx) g (h2 g (by simp))
    rw [npCheckRegular, hb, ok_bind']
    cases b with
    | true =>
      obtain ⟨b', hb', hbi'⟩ := ih (fun g hg => h2 g (by simp [hg]))
      refine ⟨b', hb', ?_⟩
      rw [hbi']
      simp [hbi.1 rfl]
    | false =>
      refine ⟨false, npCheckRegular_false nx grids, ?_⟩
      constructor
      · simp
      · intro h
        exact hbi.2 (h g (by simp))

theorem startStep_any_f64 (np : Numpy F32 F64 X) (nx : NumpyX X) (g : NpArray F32 F64 X)
    (h2 : 2 ≤ g.size) :
    ∃ s p, g.startStep64 np nx = .ok (s, p) ∧ IsStartStep64 np nx g s p := by
  rcases g with d | d | d <;> rcases d with _ | ⟨a, _ | ⟨b, r⟩⟩
  all_goals first
    | (exfalso; simp [NpArray.size] at h2; done)
    | exact ⟨_, _, rfl, a, b, r, rfl, rfl, rfl⟩

theorem startStep_list_f64 (np : Numpy F32 F64 X) (nx : NumpyX X) (grids : List (NpArray F32 F64 X))
    (h2 : ∀ g ∈ grids, 2 ≤ g.size) :
    ∃ p, pyEach (NpArray.startStep64 np nx) grids = .ok p ∧
      List.Forall₂ (fun g q => IsStartStep64 np nx g q.1 q.2) grids p := by
  induction grids with
  | nil => exact ⟨[], rfl, .nil⟩
  | cons g grids ih =>
    obtain ⟨p, hp, hf⟩ := ih (fun g hg => h2 g (by simp [hg]))
    obtain ⟨s, q, hq, hi⟩ := startStep_any_f64 np nx g (h2 g (by simp))
    refine ⟨(s, q) :: p, ?_, .cons hi hf⟩
    rw [pyEach, hq, hp]
    rfl

theorem startStep_any_f32 (np : Numpy F32 F64 X) (nx : NumpyX X) (g : NpArray F32 F64 X)
    (h2 : 2 ≤ g.size) :
    ∃ s p, g.startStep32 np nx = .ok (s, p) ∧ IsStartStep32 np nx g s p := by
  rcases g with d | d | d <;> rcases d with _ | ⟨a, _ | ⟨b, r⟩⟩
  all_goals first
    | (exfalso; simp [NpArray.size] at h2; done)
    | exact ⟨_, _, rfl, a, b, r, rfl, rfl, rfl⟩

theorem startStep_list_f32 (np : Numpy F32 F64 X) (nx : NumpyX X) (grids : List (NpArray F32 F64 X))
    (h2 : ∀ g ∈ grids, 2 ≤ g.size) :
    ∃ p, pyEach (NpArray.startStep32 np nx) grids = .ok p ∧
      List.Forall₂ (fun g q => IsStartStep32 np nx g q.1 q.2) grids p := by
  induction grids with
  | nil => exact ⟨[], rfl, .nil⟩
  | cons g grids ih =>
    obtain ⟨p, hp, hf⟩ := ih (fun g hg => h2 g (by simp [hg]))
    obtain ⟨s, q, hq, hi⟩ := startStep_any_f32 np nx g (h2 g (by simp))
    refine ⟨(s, q) :: p, ?_, .cons hi hf⟩
    rw [pyEach, hq, hp]
    rfl


end Interpn
