import Verif.Lemmas.FormsRec
import Verif.Lemmas.Batch

/-! The constructors, the `interp` methods and `check_bounds` are equal to the common forms of
`Verif/Lemmas/Forms.lean`. -/

set_option autoImplicit false

namespace Interpn
open FloatOps

section
variable {T : Type} [FloatOps T] {N M : Nat}

/-! ### Constructors on regular grids -/

theorem MultilinearRegular.new_form (dims : Fin N → Nat) (starts steps : Fin N → T)
    (vals : List T) :
    new dims starts steps vals = (do
      checkRegular 2 "All grids must have at least two entries" (List.ofFn dims)
        (List.ofFn steps) vals
      return { dims, starts, steps, vals }) := by
  unfold new checkRegular
  rw [Res.bind_assoc]
  refine Res.bind_congr fun nvals _ => ?_
  split_ifs <;> rfl

theorem NearestRegular.new_form (dims : Fin N → Nat) (starts steps : Fin N → T)
    (vals : List T) :
    new dims starts steps vals = (do
      checkRegular 2 "All grids must have at least two entries" (List.ofFn dims)
        (List.ofFn steps) vals
      return { dims, starts, steps, vals }) := by
  unfold new checkRegular
  rw [Res.bind_assoc]
  refine Res.bind_congr fun nvals _ => ?_
  split_ifs <;> rfl

theorem MulticubicRegular.new_form (dims : Fin N → Nat) (starts steps : Fin N → T)
    (vals : List T) (lin : Bool) :
    new dims starts steps vals lin = (do
      checkRegular 4 "All grids must have at least four entries" (List.ofFn dims)
        (List.ofFn steps) vals
      return { dims, starts, steps, vals, lin }) := by
  unfold new checkRegular
  rw [Res.bind_assoc]
  refine Res.bind_congr fun nvals _ => ?_
  split_ifs <;> rfl

theorem MultilinearRegularRecursive.new_form (M : Nat) (dims : List Nat) (starts steps : List T)
    (vals : List T) :
    new M dims starts steps vals = (do
      checkRegularRec 2 "All grids must have at least two entries" dims starts steps vals
      let steps_local ← padTo M zero steps
      let starts_local ← padTo M zero starts
      let dims_local ← padTo M 0 dims
      return { ndims := dims.length, dims := dims_local, starts := starts_local,
               steps := steps_local, vals }) := by
  unfold new checkRegularRec
  simp only
  rw [Res.bind_assoc]
  refine Res.bind_congr fun nvals _ => ?_
  split_ifs <;> rfl

theorem MulticubicRegularRecursive.new_form (M : Nat) (dims : List Nat) (starts steps : List T)
    (vals : List T) (lin : Bool) :
    new M dims starts steps vals lin = (do
      checkRegularRec 4 "All grids must have at least four entries" dims starts steps vals
      let steps_local ← padTo M zero steps
      let starts_local ← padTo M zero starts
      let dims_local ← padTo M 0 dims
      return { ndims := dims.length, dims := dims_local, starts := starts_local,
               steps := steps_local, vals, lin }) := by
  unfold new checkRegularRec
  simp only
  rw [Res.bind_assoc]
  refine Res.bind_congr fun nvals _ => ?_
  split_ifs <;> rfl

/-! ### Constructors on rectilinear grids -/

theorem allRes_form (gs : List (List T)) :
    allRes (fun g => do return (← lget g 0) <. (← lget g 1)) gs = allFirstPairs gs := by
  induction gs with
  | nil => rfl
  | cons g gs ih =>
    unfold allRes allFirstPairs
    rw [ih]
    have : (do return (← lget g 0) <. (← lget g 1) : Res Bool) = firstPairIncreasing g := by
      unfold firstPairIncreasing
      match g with
      | [] => rfl
      | [_] => rfl
      | _ :: _ :: _ => rfl
    rw [this]

omit [FloatOps T] in
theorem dimsLoop_form (grids : Fin N → List T) :
    (forRange N ((fun _ => 1) : Fin N → Nat) fun i dims => do
      aset dims i (← aget grids i).length) = .ok fun i => (grids i).length := by
  have h := axisLoop_ok N 1 (fun i => do return (← aget grids i).length)
    (fun i => (grids i).length) (fun k => by rw [aget_fin]; rfl)
  rw [← h]
  refine forRange_congr fun i hi st => ?_
  simp only [aget_lt _ hi, Res.ok_bind, Res.pure_eq]

omit [FloatOps T] in
theorem ofFn_length_form (grids : Fin N → List T) :
    List.ofFn (fun i => (grids i).length) = (List.ofFn grids).map List.length := by
  rw [List.map_ofFn]; rfl

theorem MultilinearRectilinear.new_form (grids : Fin N → List T) (vals : List T) :
    new grids vals = (do
      checkRectilinear 2 "All grids must have at least 2 entries" (List.ofFn grids) vals
      return { grids, dims := fun i => (grids i).length, vals }) := by
  unfold new checkRectilinear
  rw [dimsLoop_form, Res.ok_bind, ofFn_length_form, allRes_form, Res.bind_assoc]
  refine Res.bind_congr fun nvals _ => ?_
  split_ifs
  · rfl
  · rfl
  · rw [Res.bind_assoc]; refine Res.bind_congr fun b _ => ?_
    cases b <;> rfl

theorem NearestRectilinear.new_form (grids : Fin N → List T) (vals : List T) :
    new grids vals = (do
      checkRectilinear 2 "All grids must have at least 2 entries" (List.ofFn grids) vals
      return { grids, dims := fun i => (grids i).length, vals }) := by
  unfold new checkRectilinear
  rw [dimsLoop_form, Res.ok_bind, ofFn_length_form, allRes_form, Res.bind_assoc]
  refine Res.bind_congr fun nvals _ => ?_
  split_ifs
  · rfl
  · rfl
  · rw [Res.bind_assoc]; refine Res.bind_congr fun b _ => ?_
    cases b <;> rfl

theorem MulticubicRectilinear.new_form (grids : Fin N → List T) (vals : List T) (lin : Bool) :
    new grids vals lin = (do
      checkRectilinear 4 "All grids must have at least 4 entries" (List.ofFn grids) vals
      return { grids, dims := fun i => (grids i).length, vals, lin }) := by
  unfold new checkRectilinear
  rw [dimsLoop_form, Res.ok_bind, ofFn_length_form, allRes_form, Res.bind_assoc]
  refine Res.bind_congr fun nvals _ => ?_
  split_ifs
  · rfl
  · rfl
  · rw [Res.bind_assoc]; refine Res.bind_congr fun b _ => ?_
    cases b <;> rfl

omit [FloatOps T] in
theorem dimsLoopRec_form (M : Nat) (grids : List (List T)) :
    (forRange grids.length ((fun _ => 1) : Fin M → Nat) fun i dims => do
      aset dims i (← lget grids i).length) = padTo M 1 (grids.map List.length) := by
  unfold padTo
  rw [List.length_map]
  -- after `k` steps, provided `k ≤ M`
  have key : ∀ k, k ≤ grids.length → k ≤ M →
      (forRange k ((fun _ => 1) : Fin M → Nat) fun i dims => do
        aset dims i (← lget grids i).length) =
      .ok fun i => if i.val < k then (grids.map List.length).getD i.val 1 else 1 := by
    intro k
    induction k with
    | zero => intro _ _; simp only [forRange_zero, Nat.not_lt_zero, if_false]
    | succ k ih =>
      intro hk hM
      rw [forRange_succ, ih (by omega) (by omega), Res.ok_bind, lget_lt _ (by omega), Res.ok_bind,
        aset_lt _ (by omega)]
      refine congrArg Res.ok (funext fun i => ?_)
      by_cases h : i.val = k
      · rw [if_pos h, if_pos (by omega), h]
        simp [List.getD_eq_getElem?_getD, List.getElem?_eq_getElem (show k < grids.length by omega)]
      · rw [if_neg h]
        by_cases h' : i.val < k
        · rw [if_pos h', if_pos (by omega)]
        · rw [if_neg h', if_neg (by omega)]
  by_cases h : grids.length ≤ M
  · rw [if_pos h, key _ le_rfl h]
    refine congrArg Res.ok (funext fun i => ?_)
    by_cases h' : i.val < grids.length
    · rw [if_pos h']
    · rw [if_neg h']
      simp [List.getD_eq_getElem?_getD, List.getElem?_eq_none (not_lt.mp h')]
  · rw [if_neg h]
    -- the write number `M` panics
    have : ∀ k, M < k → k ≤ grids.length →
        (forRange k ((fun _ => 1) : Fin M → Nat) fun i dims => do
          aset dims i (← lget grids i).length) = .panic := by
      intro k hk
      induction k with
      | zero => omega
      | succ k ih =>
        intro hkl
        rw [forRange_succ]
        by_cases hMk : M < k
        · rw [ih hMk (by omega)]; rfl
        · have : k = M := by omega
          subst this
          rw [key k (by omega) le_rfl, Res.ok_bind, lget_lt _ (by omega), Res.ok_bind]
          unfold aset
          rw [if_neg (by omega)]
    exact this _ (by omega) le_rfl

omit [FloatOps T] in
theorem take_padTo_form {M : Nat} {grids : List (List T)} {dims : Fin M → Nat}
    (h : padTo M 1 (grids.map List.length) = .ok dims) :
    (List.ofFn dims).take grids.length = grids.map List.length := by
  unfold padTo at h
  rw [List.length_map] at h
  split_ifs at h with hM
  cases h
  apply List.ext_getElem
  · simp only [List.length_take, List.length_ofFn, List.length_map]; omega
  · intro i h1 h2
    rw [List.getElem_take, List.getElem_ofFn, List.getD_eq_getElem?_getD,
      List.getElem?_eq_getElem h2]
    rfl

theorem MultilinearRectilinearRecursive.new_form (M : Nat) (grids : List (List T))
    (vals : List T) :
    new M grids vals = (do
      let dims ← checkRectilinearRec M 2 "All grids must have at least 2 entries" grids vals
      return { grids, dims, vals }) := by
  unfold new checkRectilinearRec
  simp only
  rw [dimsLoopRec_form, Res.bind_assoc]
  refine Res.bind_congr fun dims hd => ?_
  rw [take_padTo_form hd, allRes_form, Res.bind_assoc]
  refine Res.bind_congr fun nvals _ => ?_
  split_ifs
  · rfl
  · rfl
  · rw [Res.bind_assoc]; refine Res.bind_congr fun b _ => ?_
    cases b <;> rfl

theorem MulticubicRectilinearRecursive.new_form (M : Nat) (grids : List (List T))
    (vals : List T) (lin : Bool) :
    new M grids vals lin = (do
      let dims ← checkRectilinearRec M 4 "All grids must have at least 4 entries" grids vals
      return { grids, dims, vals, lin }) := by
  unfold new checkRectilinearRec
  simp only
  rw [dimsLoopRec_form, Res.bind_assoc]
  refine Res.bind_congr fun dims hd => ?_
  rw [take_padTo_form hd, allRes_form, Res.bind_assoc]
  refine Res.bind_congr fun nvals _ => ?_
  split_ifs
  · rfl
  · rfl
  · rw [Res.bind_assoc]; refine Res.bind_congr fun b _ => ?_
    cases b <;> rfl

/-! ### `interp` -/

theorem MultilinearRegular.interp_form (fma : Bool) (s : MultilinearRegular T N) (x : Fin N → List T)
    (out : List T) : s.interp fma x out = interpBatch zero (s.interpOne fma) x out := by
  unfold interp interpBatch
  cases h : (List.ofFn x).all fun xx => xx.length == out.length
  · simp only; rfl
  · simp only; rfl

theorem MultilinearRectilinear.interp_form (fma : Bool) (s : MultilinearRectilinear T N) (x : Fin N → List T)
    (out : List T) : s.interp fma x out = interpBatch zero (s.interpOne fma) x out := by
  unfold interp interpBatch
  cases h : (List.ofFn x).all fun xx => xx.length == out.length
  · simp only; rfl
  · simp only; rfl

theorem NearestRegular.interp_form (fma : Bool) (s : NearestRegular T N) (x : Fin N → List T)
    (out : List T) : s.interp fma x out = interpBatch zero (s.interpOne fma) x out := by
  unfold interp interpBatch
  cases h : (List.ofFn x).all fun xx => xx.length == out.length
  · simp only; rfl
  · simp only; rfl

theorem NearestRectilinear.interp_form (s : NearestRectilinear T N) (x : Fin N → List T)
    (out : List T) : s.interp x out = interpBatch zero s.interpOne x out := by
  unfold interp interpBatch
  cases h : (List.ofFn x).all fun xx => xx.length == out.length
  · simp only; rfl
  · simp only; rfl

theorem MulticubicRegular.interp_form (fma : Bool) (s : MulticubicRegular T N) (x : Fin N → List T)
    (out : List T) : s.interp fma x out = interpBatch zero (s.interpOne fma) x out := by
  unfold interp interpBatch
  cases h : (List.ofFn x).all fun xx => xx.length == out.length
  · simp only; rfl
  · simp only; rfl

theorem MulticubicRectilinear.interp_form (fma : Bool) (s : MulticubicRectilinear T N) (x : Fin N → List T)
    (out : List T) : s.interp fma x out = interpBatch zero (s.interpOne fma) x out := by
  unfold interp interpBatch
  cases h : (List.ofFn x).all fun xx => xx.length == out.length
  · simp only; rfl
  · simp only; rfl

omit [FloatOps T] in
theorem gatherRec_form (zero : T) (x : List (List T)) (n i : Nat) (h : x.length = n) :
    (forRange n ((fun _ => zero) : Fin n → T) fun j tmp => do
      aset tmp j (← lget (← lget x j) i)) =
    gatherPoint zero (fun k : Fin n => x[k.val]'(by omega)) i := by
  unfold gatherPoint
  refine forRange_congr fun j hj st => ?_
  rw [aget_lt _ hj, lget_lt _ (by omega)]

theorem MultilinearRegularRecursive.interp_form (fma : Bool)
    (s : MultilinearRegularRecursive T M) (x : List (List T)) (out : List T) :
    s.interp fma x out = interpBatchRec M s.ndims zero (s.interpOne fma) x out := by
  unfold interp interpBatchRec
  by_cases h1 : x.length = s.ndims
  · cases h2 : x.all fun xx => xx.length == out.length
    · simp [h1]
    · by_cases h3 : s.ndims ≤ M
      · simp only [h1, dif_pos, if_pos h3, if_neg (not_lt.mpr h3),
          gatherRec_form _ _ _ _ h1]
        simp
      · simp [h1, if_neg h3, if_pos (not_le.mp h3)]
  · rw [dif_neg h1, if_pos h1]

theorem MultilinearRectilinearRecursive.interp_form (fma : Bool)
    (s : MultilinearRectilinearRecursive T M) (x : List (List T)) (out : List T) :
    s.interp fma x out = interpBatchRec M s.grids.length zero (s.interpOne fma) x out := by
  unfold interp interpBatchRec
  by_cases h1 : x.length = s.grids.length
  · cases h2 : x.all fun xx => xx.length == out.length
    · simp [h1]
    · by_cases h3 : s.grids.length ≤ M
      · simp only [h1, dif_pos, if_pos h3, if_neg (not_lt.mpr h3),
          gatherRec_form _ _ _ _ h1]
        simp
      · simp [h1, if_neg h3, if_pos (not_le.mp h3)]
  · rw [dif_neg h1, if_pos h1]

theorem MulticubicRegularRecursive.interp_form (fma : Bool)
    (s : MulticubicRegularRecursive T M) (x : List (List T)) (out : List T) :
    s.interp fma x out = interpBatchRec M s.ndims zero (s.interpOne fma) x out := by
  unfold interp interpBatchRec
  by_cases h1 : x.length = s.ndims
  · cases h2 : x.all fun xx => xx.length == out.length
    · simp [h1]
    · by_cases h3 : s.ndims ≤ M
      · simp only [h1, dif_pos, if_pos h3, if_neg (not_lt.mpr h3),
          gatherRec_form _ _ _ _ h1]
        simp
      · simp [h1, if_neg h3, if_pos (not_le.mp h3)]
  · rw [dif_neg h1, if_pos h1]

theorem MulticubicRectilinearRecursive.interp_form (fma : Bool)
    (s : MulticubicRectilinearRecursive T M) (x : List (List T)) (out : List T) :
    s.interp fma x out = interpBatchRec M s.grids.length zero (s.interpOne fma) x out := by
  unfold interp interpBatchRec
  by_cases h1 : x.length = s.grids.length
  · cases h2 : x.all fun xx => xx.length == out.length
    · simp [h1]
    · by_cases h3 : s.grids.length ≤ M
      · simp only [h1, dif_pos, if_pos h3, if_neg (not_lt.mpr h3),
          gatherRec_form _ _ _ _ h1]
        simp
      · simp [h1, if_neg h3, if_pos (not_le.mp h3)]
  · rw [dif_neg h1, if_pos h1]

/-! ### `interp` meets the batch specification -/

theorem MultilinearRegular.interp_spec (fma : Bool) (s : MultilinearRegular T N) :
    BatchSpec (s.interpOne fma) (s.interp fma) := by
  have h : s.interp fma = interpBatch zero (s.interpOne fma) :=
    funext fun x => funext fun out => s.interp_form fma x out
  rw [h]; exact interpBatch_spec zero _

theorem MultilinearRectilinear.interp_spec (fma : Bool) (s : MultilinearRectilinear T N) :
    BatchSpec (s.interpOne fma) (s.interp fma) := by
  have h : s.interp fma = interpBatch zero (s.interpOne fma) :=
    funext fun x => funext fun out => s.interp_form fma x out
  rw [h]; exact interpBatch_spec zero _

theorem NearestRegular.interp_spec (fma : Bool) (s : NearestRegular T N) :
    BatchSpec (s.interpOne fma) (s.interp fma) := by
  have h : s.interp fma = interpBatch zero (s.interpOne fma) :=
    funext fun x => funext fun out => s.interp_form fma x out
  rw [h]; exact interpBatch_spec zero _

theorem NearestRectilinear.interp_spec (s : NearestRectilinear T N) :
    BatchSpec s.interpOne s.interp := by
  have h : s.interp = interpBatch zero s.interpOne :=
    funext fun x => funext fun out => s.interp_form x out
  rw [h]; exact interpBatch_spec zero _

theorem MulticubicRegular.interp_spec (fma : Bool) (s : MulticubicRegular T N) :
    BatchSpec (s.interpOne fma) (s.interp fma) := by
  have h : s.interp fma = interpBatch zero (s.interpOne fma) :=
    funext fun x => funext fun out => s.interp_form fma x out
  rw [h]; exact interpBatch_spec zero _

theorem MulticubicRectilinear.interp_spec (fma : Bool) (s : MulticubicRectilinear T N) :
    BatchSpec (s.interpOne fma) (s.interp fma) := by
  have h : s.interp fma = interpBatch zero (s.interpOne fma) :=
    funext fun x => funext fun out => s.interp_form fma x out
  rw [h]; exact interpBatch_spec zero _

theorem MultilinearRegularRecursive.interp_spec (fma : Bool)
    (s : MultilinearRegularRecursive T M) (hM : s.ndims ≤ M) :
    BatchSpecL s.ndims (s.interpOne fma) (s.interp fma) := by
  have h : s.interp fma = interpBatchRec M s.ndims zero (s.interpOne fma) :=
    funext fun x => funext fun out => s.interp_form fma x out
  rw [h]; exact interpBatchRec_spec hM zero _

theorem MultilinearRectilinearRecursive.interp_spec (fma : Bool)
    (s : MultilinearRectilinearRecursive T M) (hM : s.grids.length ≤ M) :
    BatchSpecL s.grids.length (s.interpOne fma) (s.interp fma) := by
  have h : s.interp fma = interpBatchRec M s.grids.length zero (s.interpOne fma) :=
    funext fun x => funext fun out => s.interp_form fma x out
  rw [h]; exact interpBatchRec_spec hM zero _

theorem MulticubicRegularRecursive.interp_spec (fma : Bool)
    (s : MulticubicRegularRecursive T M) (hM : s.ndims ≤ M) :
    BatchSpecL s.ndims (s.interpOne fma) (s.interp fma) := by
  have h : s.interp fma = interpBatchRec M s.ndims zero (s.interpOne fma) :=
    funext fun x => funext fun out => s.interp_form fma x out
  rw [h]; exact interpBatchRec_spec hM zero _

theorem MulticubicRectilinearRecursive.interp_spec (fma : Bool)
    (s : MulticubicRectilinearRecursive T M) (hM : s.grids.length ≤ M) :
    BatchSpecL s.grids.length (s.interpOne fma) (s.interp fma) := by
  have h : s.interp fma = interpBatchRec M s.grids.length zero (s.interpOne fma) :=
    funext fun x => funext fun out => s.interp_form fma x out
  rw [h]; exact interpBatchRec_spec hM zero _

/-! ### `check_bounds` -/

theorem checkBoundsRegular_form (dims : List Nat) (starts steps : List T) (obs : List (List T))
    (atol : T) (out : List Bool) :
    checkBoundsRegular dims starts steps obs atol out =
      if !(obs.length = dims.length && out.length = dims.length) then
        (.err "Dimension mismatch", out)
      else checkBoundsLoop (checkBoundsRegularAxis dims starts steps obs atol) dims.length out :=
  rfl

theorem checkBoundsRectilinear_form (grids obs : List (List T)) (atol : T) (out : List Bool) :
    checkBoundsRectilinear grids obs atol out =
      if !(obs.length = grids.length && out.length = grids.length &&
          grids.all (fun g => !g.isEmpty)) then (.err "Dimension mismatch", out)
      else checkBoundsLoop (checkBoundsRectilinearAxis grids obs atol) grids.length out :=
  rfl

theorem checkBoundsRegularRecursive_form (dims : List Nat) (starts steps : List T)
    (obs : List (List T)) (atol : T) (out : List Bool) :
    checkBoundsRegularRecursive dims starts steps obs atol out =
      checkBoundsRegular dims starts steps obs atol out := rfl

theorem checkBoundsRectilinearRecursive_form (grids obs : List (List T)) (atol : T)
    (out : List Bool) :
    checkBoundsRectilinearRecursive grids obs atol out =
      checkBoundsRectilinear grids obs atol out := rfl

end
end Interpn
