import Verif.Lemmas.FormsEq
import Verif.Lemmas.Layout

/-! The functions of the recursive methods are equal to the common forms of
`Verif/Lemmas/Forms.lean`. -/

set_option autoImplicit false

namespace Interpn
open FloatOps

section
variable {T : Type} {M : Nat}

/-! ### Strides -/

theorem MultilinearRegularRecursive.strideLoop_form (s : MultilinearRegularRecursive T M) :
    s.strideLoop = recDimprod s.ndims s.dims := rfl

theorem MultilinearRectilinearRecursive.strideLoop_form
    (s : MultilinearRectilinearRecursive T M) :
    s.strideLoop = recDimprod s.grids.length s.dims := rfl

theorem MulticubicRegularRecursive.strideLoop_form (s : MulticubicRegularRecursive T M) :
    s.strideLoop = recDimprod s.ndims s.dims := rfl

theorem MulticubicRectilinearRecursive.strideLoop_form
    (s : MulticubicRectilinearRecursive T M) :
    s.strideLoop = recDimprod s.grids.length s.dims := rfl

variable [FloatOps T]

/-! ### `populate` -/

theorem MultilinearRegularRecursive.populate_form (fma : Bool)
    (s : MultilinearRegularRecursive T M) {n : Nat} (origin dimprod : Fin n → Nat)
    (dts : Fin n → T) (dim : Nat) : ∀ loc : Fin n → Nat,
    s.populate fma origin dimprod dts dim loc =
      Interpn.populate 2 zero origin dimprod s.vals
        (fun ind v => do return lerp fma (← aget dts ind) v) dim loc := by
  induction dim with
  | zero => intro loc; rfl
  | succ d ih =>
    intro loc
    unfold populate Interpn.populate
    simp only [ih]
    refine Res.bind_congr fun st _ => Res.bind_congr fun o _ => Res.bind_congr fun loc' _ => ?_
    simp only [Res.bind_assoc, Res.pure_eq, Res.ok_bind]
    rfl

theorem MultilinearRectilinearRecursive.populate_form (fma : Bool)
    (s : MultilinearRectilinearRecursive T M) {n : Nat} (origin dimprod : Fin n → Nat)
    (x : Fin n → T) (dim : Nat) (hd : dim ≤ n) : ∀ loc : Fin n → Nat,
    s.populate fma origin dimprod x dim loc =
      Interpn.populate 2 zero origin dimprod s.vals
        (fun ind v => do
          lerpRectilinear fma (← lget s.grids ind) (← aget origin ind) (← aget x ind) v)
        dim loc := by
  induction dim with
  | zero => intro loc; rfl
  | succ d ih =>
    intro loc
    unfold populate Interpn.populate
    simp only [ih (by omega)]
    refine Res.bind_congr fun st _ => Res.bind_congr fun o _ => Res.bind_congr fun loc' _ => ?_
    simp only [lerpRectilinear, Res.bind_assoc, Res.pure_eq, Res.ok_bind,
      aget_lt _ (show d < n by omega)]
    rfl

theorem MulticubicRegularRecursive.populate_form (fma : Bool)
    (s : MulticubicRegularRecursive T M) {n : Nat} (sat : Fin n → Saturation)
    (origin dimprod : Fin n → Nat) (dts : Fin n → T) (dim : Nat) : ∀ loc : Fin n → Nat,
    s.populate fma sat origin dimprod dts dim loc =
      Interpn.populate 4 zero origin dimprod s.vals
        (fun ind v => do
          return cubicInnerRegular fma false v (← aget dts ind) (← aget sat ind) s.lin)
        dim loc := by
  induction dim with
  | zero => intro loc; rfl
  | succ d ih =>
    intro loc
    unfold populate Interpn.populate
    simp only [ih]
    refine Res.bind_congr fun st _ => Res.bind_congr fun o _ => Res.bind_congr fun loc' _ => ?_
    simp only [interpInner_form, Res.bind_assoc, Res.pure_eq, Res.ok_bind]

theorem MulticubicRectilinearRecursive.populate_form (fma : Bool)
    (s : MulticubicRectilinearRecursive T M) {n : Nat} (sat : Fin n → Saturation)
    (origin dimprod : Fin n → Nat) (x : Fin n → T) (dim : Nat) : ∀ loc : Fin n → Nat,
    s.populate fma sat origin dimprod x dim loc =
      Interpn.populate 4 zero origin dimprod s.vals
        (fun ind v => do
          let g ← gridCell (← lget s.grids ind) (← aget origin ind)
          return cubicInnerRectilinear fma fma fma v g (← aget x ind) (← aget sat ind) s.lin)
        dim loc := by
  induction dim with
  | zero => intro loc; rfl
  | succ d ih =>
    intro loc
    unfold populate Interpn.populate
    simp only [ih]
    refine Res.bind_congr fun st _ => Res.bind_congr fun o _ => Res.bind_congr fun loc' _ => ?_
    simp only [interpInner_form, Res.bind_assoc, Res.pure_eq, Res.ok_bind]

/-! ### `interp_one` -/

theorem MultilinearRegularRecursive.interpOne_form (fma : Bool)
    (s : MultilinearRegularRecursive T M) (x : List T) :
    s.interpOne fma x =
      if h : x.length = s.ndims ∧ s.ndims ≤ M then do
        let xs : Fin s.ndims → T := fun k => x[k.val]'(by omega)
        let dimprod ← recDimprod s.ndims s.dims
        let origin ← axisLoop s.ndims 0 fun i => do
          linGetLocRegular (← aget s.dims i) (← aget s.starts i) (← aget s.steps i)
            (← aget xs i)
        let dts ← axisLoop s.ndims zero fun i => do
          match ofUsize (← aget origin i) with
          | none => .err "Unrepresentable coordinate value"
          | some origin_f =>
            let index_zero_loc := (← aget s.starts i) +. (← aget s.steps i) *. origin_f
            return ((← aget xs i) -. index_zero_loc) /. (← aget s.steps i)
        let r ← Interpn.populate 2 zero origin dimprod s.vals (fun ind v => do
          return lerp fma (← aget dts ind) v) s.ndims origin
        return r.1
      else .err "Dimension mismatch" := by
  unfold interpOne
  by_cases h : x.length = s.ndims ∧ s.ndims ≤ M
  · rw [dif_pos h, dif_pos h]
    simp only [strideLoop_form, populate_form]
    refine Res.bind_congr fun dimprod _ => ?_
    have h1 : ∀ xs : Fin s.ndims → T, (forRange s.ndims ((fun _ => 0) : Fin s.ndims → Nat) fun i origin => do
        aset origin i (← s.getLoc (← aget xs i) i)) =
        (axisLoop s.ndims 0 fun i => do
          linGetLocRegular (← aget s.dims i) (← aget s.starts i) (← aget s.steps i)
            (← aget xs i)) := by
      intro xs
      refine forRange_congr fun i hi st => ?_
      simp only [aget_lt _ hi, aget_lt _ (show i < M by omega), Res.ok_bind,
        s.getLoc_form _ (show i < M by omega)]
    refine (congrArg (· >>= _) (h1 _)).trans ?_
    refine Res.bind_congr fun origin _ => ?_
    have h2 : ∀ xs : Fin s.ndims → T, (forRange s.ndims ((fun _ => zero) : Fin s.ndims → T) fun i dts => do
        match ofUsize (← aget origin i) with
        | none => .err "Unrepresentable coordinate value"
        | some origin_f =>
          let index_zero_loc := (← aget s.starts i) +. (← aget s.steps i) *. origin_f
          aset dts i (((← aget xs i) -.
            index_zero_loc) /. (← aget s.steps i))) =
        (axisLoop s.ndims zero fun i => do
          match ofUsize (← aget origin i) with
          | none => .err "Unrepresentable coordinate value"
          | some origin_f =>
            let index_zero_loc := (← aget s.starts i) +. (← aget s.steps i) *. origin_f
            return ((← aget xs i) -.
              index_zero_loc) /. (← aget s.steps i)) := by
      intro xs
      refine forRange_congr fun i hi st => ?_
      simp only [aget_lt _ hi, aget_lt _ (show i < M by omega), Res.ok_bind]
      cases (ofUsize (origin ⟨i, hi⟩) : Option T) with
      | none => rfl
      | some f => simp only [Res.ok_bind, Res.pure_eq]
    exact congrArg (· >>= _) (h2 _)
  · simp only [dif_neg h]

theorem MultilinearRectilinearRecursive.interpOne_form (fma : Bool)
    (s : MultilinearRectilinearRecursive T M) (x : List T) :
    s.interpOne fma x =
      if h : x.length = s.grids.length ∧ s.grids.length ≤ M then do
        let ndims := s.grids.length
        let xs : Fin ndims → T := fun k => x[k.val]'(by omega)
        let dimprod ← recDimprod ndims s.dims
        let origin ← axisLoop ndims 0 fun i => do
          linGetLocRectilinear (← aget s.dims i) (← lget s.grids i) (← aget xs i)
        let r ← Interpn.populate 2 zero origin dimprod s.vals (fun ind v => do
          lerpRectilinear fma (← lget s.grids ind) (← aget origin ind) (← aget xs ind) v)
          ndims origin
        return r.1
      else .err "Dimension mismatch" := by
  unfold interpOne
  by_cases h : x.length = s.grids.length ∧ s.grids.length ≤ M
  · rw [dif_pos h, dif_pos h]
    simp only [strideLoop_form, s.populate_form _ _ _ _ _ (le_refl s.grids.length)]
    refine Res.bind_congr fun dimprod _ => ?_
    have h1 : ∀ xs : Fin s.grids.length → T, (forRange s.grids.length ((fun _ => 0) : Fin s.grids.length → Nat)
        fun i origin => do
          aset origin i (← s.getLoc (← aget xs i) i)) =
        (axisLoop s.grids.length 0 fun i => do
          linGetLocRectilinear (← aget s.dims i) (← lget s.grids i) (← aget xs i)) := by
      intro xs
      refine forRange_congr fun i hi st => ?_
      simp only [aget_lt _ hi, aget_lt _ (show i < M by omega), lget_lt _ hi, Res.ok_bind,
        s.getLoc_form _ (show i < M by omega) hi]
    exact congrArg (· >>= _) (h1 _)
  · simp only [dif_neg h]

/-- The loops filling `origin` and `sat` together. -/
theorem axisLoop_pair {α β : Type} (n : Nat) (a : α) (b : β) (f : Nat → Res (α × β)) :
    (forRange n (((fun _ => a) : Fin n → α), ((fun _ => b) : Fin n → β))
      fun i (st : (Fin n → α) × (Fin n → β)) => do
        let r ← f i
        return (← aset st.1 i r.1, ← aset st.2 i r.2)) =
      (axisLoop n (a, b) f >>= fun axes => .ok ((fun k => (axes k).1), fun k => (axes k).2)) := by
  unfold axisLoop
  refine forRange_map (fun axes : Fin n → α × β => ((fun k => (axes k).1), fun k => (axes k).2))
    (fun _ => (a, b)) ?_
  intro i hi st
  rw [Res.bind_assoc]
  refine Res.bind_congr fun r _ => ?_
  simp only [aset_lt _ hi, Res.ok_bind, Res.pure_eq, aset_fst, aset_snd]

theorem MulticubicRegularRecursive.interpOne_form (fma : Bool)
    (s : MulticubicRegularRecursive T M) (x : List T) :
    s.interpOne fma x =
      if h : x.length = s.ndims ∧ s.ndims ≤ M then do
        let xs : Fin s.ndims → T := fun k => x[k.val]'(by omega)
        let dimprod ← recDimprod s.ndims s.dims
        let axes ← axisLoop s.ndims (0, Saturation.none) fun i => do
          cubGetLocRegular (← aget s.dims i) (← aget s.starts i) (← aget s.steps i)
            (← aget xs i)
        let dts ← axisLoop s.ndims zero fun i => do
          cubicDt (← aget axes i).1 (← aget s.starts i) (← aget s.steps i) (← aget xs i)
        let origin := fun k => (axes k).1
        let r ← Interpn.populate 4 zero origin dimprod s.vals (fun ind v => do
          return cubicInnerRegular fma false v (← aget dts ind) (← aget axes ind).2 s.lin)
          s.ndims origin
        return r.1
      else .err "Dimension mismatch" := by
  unfold interpOne
  by_cases h : x.length = s.ndims ∧ s.ndims ≤ M
  · rw [dif_pos h, dif_pos h]
    simp only [strideLoop_form, populate_form]
    refine Res.bind_congr fun dimprod _ => ?_
    have h1 : ∀ xs : Fin s.ndims → T, (forRange s.ndims (((fun _ => 0) : Fin s.ndims → Nat),
        ((fun _ => .none) : Fin s.ndims → Saturation)) fun i st => do
          let r ← s.getLoc (← aget xs i) i
          return (← aset st.1 i r.1, ← aset st.2 i r.2)) =
        ((axisLoop s.ndims (0, Saturation.none) fun i => do
          cubGetLocRegular (← aget s.dims i) (← aget s.starts i) (← aget s.steps i)
            (← aget xs i)) >>= fun axes =>
              .ok ((fun k => (axes k).1), fun k => (axes k).2)) := by
      intro xs
      rw [← axisLoop_pair]
      refine forRange_congr fun i hi st => ?_
      simp only [aget_lt _ hi, aget_lt _ (show i < M by omega), Res.ok_bind,
        s.getLoc_form _ (show i < M by omega)]
    refine (congrArg (· >>= _) (h1 _)).trans ?_
    rw [Res.bind_assoc]
    refine Res.bind_congr fun axes _ => ?_
    rw [Res.ok_bind]
    have h2 : ∀ xs : Fin s.ndims → T, (forRange s.ndims ((fun _ => zero) : Fin s.ndims → T) fun i dts => do
        match ofUsize (← uadd (← aget (fun k => (axes k).1) i) 1) with
        | none => .err "Unrepresentable coordinate value"
        | some f =>
          let index_one_loc := (← aget s.starts i) +. (← aget s.steps i) *. f
          aset dts i (((← aget xs i) -.
            index_one_loc) /. (← aget s.steps i))) =
        (axisLoop s.ndims zero fun i => do
          cubicDt (← aget axes i).1 (← aget s.starts i) (← aget s.steps i)
            (← aget xs i)) := by
      intro xs
      refine forRange_congr fun i hi st => ?_
      unfold cubicDt
      simp only [aget_lt _ hi, aget_lt _ (show i < M by omega), Res.ok_bind, Res.bind_assoc]
      refine Res.bind_congr fun o1 _ => ?_
      cases (ofUsize o1 : Option T) with
      | none => rfl
      | some f => simp only [Res.ok_bind, Res.pure_eq]
    refine (congrArg (· >>= _) (h2 _)).trans ?_
    refine Res.bind_congr fun dts _ => ?_
    have hnode : (fun (ind : Nat) (v : Fin 4 → T) => (do
        let dt ← aget dts ind
        let sa ← aget (fun k => (axes k).2) ind
        (Res.ok (cubicInnerRegular fma false v dt sa s.lin) : Res T))) = (fun ind v => (do
          let dt ← aget dts ind
          let a ← aget axes ind
          Res.ok (cubicInnerRegular fma false v dt a.2 s.lin))) := by
      funext ind v
      refine Res.bind_congr fun dt _ => ?_
      rw [aget_comp]
      cases aget axes ind <;> rfl
    simp only [Res.pure_eq]
    rw [hnode]
  · simp only [dif_neg h]

theorem MulticubicRectilinearRecursive.interpOne_form (fma : Bool)
    (s : MulticubicRectilinearRecursive T M) (x : List T) :
    s.interpOne fma x =
      if h : x.length = s.grids.length ∧ s.grids.length ≤ M then do
        let ndims := s.grids.length
        let xs : Fin ndims → T := fun k => x[k.val]'(by omega)
        let dimprod ← recDimprod ndims s.dims
        let axes ← axisLoop ndims (0, Saturation.none) fun i => do
          cubGetLocRectilinear (← aget s.dims i) (← lget s.grids i) (← aget xs i)
        let origin := fun k => (axes k).1
        let r ← Interpn.populate 4 zero origin dimprod s.vals (fun ind v => do
          let g ← gridCell (← lget s.grids ind) (← aget origin ind)
          return cubicInnerRectilinear fma fma fma v g (← aget xs ind) (← aget axes ind).2 s.lin)
          ndims origin
        return r.1
      else .err "Dimension mismatch" := by
  unfold interpOne
  by_cases h : x.length = s.grids.length ∧ s.grids.length ≤ M
  · rw [dif_pos h, dif_pos h]
    simp only [strideLoop_form, populate_form]
    refine Res.bind_congr fun dimprod _ => ?_
    have h1 : ∀ xs : Fin s.grids.length → T, (forRange s.grids.length (((fun _ => 0) : Fin s.grids.length → Nat),
        ((fun _ => .none) : Fin s.grids.length → Saturation)) fun i st => do
          let r ← s.getLoc (← aget xs i) i
          return (← aset st.1 i r.1, ← aset st.2 i r.2)) =
        ((axisLoop s.grids.length (0, Saturation.none) fun i => do
          cubGetLocRectilinear (← aget s.dims i) (← lget s.grids i)
            (← aget xs i)) >>= fun axes =>
              .ok ((fun k => (axes k).1), fun k => (axes k).2)) := by
      intro xs
      rw [← axisLoop_pair]
      refine forRange_congr fun i hi st => ?_
      simp only [aget_lt _ hi, aget_lt _ (show i < M by omega), lget_lt _ hi, Res.ok_bind,
        s.getLoc_form _ (show i < M by omega) hi]
    refine (congrArg (· >>= _) (h1 _)).trans ?_
    rw [Res.bind_assoc]
    refine Res.bind_congr fun axes _ => ?_
    rw [Res.ok_bind]
    have hnode : ∀ xs : Fin s.grids.length → T, (fun (ind : Nat) (v : Fin 4 → T) => (do
        let gr ← lget s.grids ind
        let o ← aget (fun k => (axes k).1) ind
        let g ← gridCell gr o
        let xi ← aget xs ind
        let sa ← aget (fun k => (axes k).2) ind
        (Res.ok (cubicInnerRectilinear fma fma fma v g xi sa s.lin) : Res T))) =
        (fun ind v => (do
          let gr ← lget s.grids ind
          let o ← aget (fun k => (axes k).1) ind
          let g ← gridCell gr o
          let xi ← aget xs ind
          let a ← aget axes ind
          Res.ok (cubicInnerRectilinear fma fma fma v g xi a.2 s.lin))) := by
      intro xs
      funext ind v
      refine Res.bind_congr fun gr _ => Res.bind_congr fun o _ => Res.bind_congr fun g _ =>
        Res.bind_congr fun xi _ => ?_
      rw [aget_comp]
      cases aget axes ind <;> rfl
    simp only [Res.pure_eq]
    rw [hnode]
  · simp only [dif_neg h]

end
end Interpn
