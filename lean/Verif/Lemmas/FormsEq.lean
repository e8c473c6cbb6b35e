import Verif.Lemmas.Basic
import Verif.Lemmas.Forms

/-! The functions of the model are equal to the common forms of `Verif/Lemmas/Forms.lean`. -/

set_option autoImplicit false

namespace Interpn
open FloatOps

section
variable {α β γ σ τ : Type} {N : Nat}

theorem Res.bind_assoc (r : Res α) (f : α → Res β) (g : β → Res γ) :
    (r >>= f >>= g) = (r >>= fun a => f a >>= g) := by
  cases r <;> rfl

theorem Res.bind_ok (r : Res α) : (r >>= fun a => Res.ok a) = r := by cases r <;> rfl

theorem Res.bind_congr {r : Res α} {f g : α → Res β} (h : ∀ a, r = .ok a → f a = g a) :
    (r >>= f) = (r >>= g) := by
  cases r with
  | ok a => exact h a rfl
  | err e => rfl
  | panic => rfl

/-- A loop on a state, seen through a function of the state. -/
theorem forRange_map {n : Nat} (f : σ → τ) (init : σ) {body : Nat → σ → Res σ}
    {body' : Nat → τ → Res τ}
    (h : ∀ i, i < n → ∀ s, body' i (f s) = (body i s >>= fun s' => .ok (f s'))) :
    forRange n (f init) body' = (forRange n init body >>= fun s => .ok (f s)) := by
  induction n with
  | zero => rfl
  | succ n ih =>
    rw [forRange_succ, forRange_succ, ih (fun i hi => h i (by omega)), Res.bind_assoc,
      Res.bind_assoc]
    exact Res.bind_congr fun s _ => h n (by omega) s

theorem aset_fst {i : Nat} (a : Fin N → α × β) (v : α × β) :
    (fun k => (if k.val = i then v else a k).1) =
      fun k => if k.val = i then v.1 else (a k).1 := by
  funext k; split <;> rfl

theorem aset_snd {i : Nat} (a : Fin N → α × β) (v : α × β) :
    (fun k => (if k.val = i then v else a k).2) =
      fun k => if k.val = i then v.2 else (a k).2 := by
  funext k; split <;> rfl

/-- The stride part of the setup loops. -/
theorem accStep_form (dims : Fin N → Nat) (i acc : Nat) :
    (if 0 < i then do umul acc (← aget dims (N - i)) else pure acc) = accStep dims i acc := rfl

end

variable {T : Type} [FloatOps T]

/-! ### Cell location -/

section
variable {N M : Nat}

theorem MultilinearRegular.getLoc_form (s : MultilinearRegular T N) (v : T) {i : Nat}
    (h : i < N) : s.getLoc v i =
      linGetLocRegular (s.dims ⟨i, h⟩) (s.starts ⟨i, h⟩) (s.steps ⟨i, h⟩) v := by
  unfold getLoc linGetLocRegular
  simp only [aget_lt _ h, Res.ok_bind]
  rfl

theorem NearestRegular.getLoc_form (s : NearestRegular T N) (v : T) {i : Nat}
    (h : i < N) : s.getLoc v i =
      linGetLocRegular (s.dims ⟨i, h⟩) (s.starts ⟨i, h⟩) (s.steps ⟨i, h⟩) v := by
  unfold getLoc linGetLocRegular
  simp only [aget_lt _ h, Res.ok_bind]
  rfl

theorem MultilinearRectilinear.getLoc_form (s : MultilinearRectilinear T N) (v : T) {i : Nat}
    (h : i < N) : s.getLoc v i = linGetLocRectilinear (s.dims ⟨i, h⟩) (s.grids ⟨i, h⟩) v := by
  unfold getLoc linGetLocRectilinear
  simp only [aget_lt _ h, Res.ok_bind]

theorem NearestRectilinear.getLoc_form (s : NearestRectilinear T N) (v : T) {i : Nat}
    (h : i < N) : s.getLoc v i = linGetLocRectilinear (s.dims ⟨i, h⟩) (s.grids ⟨i, h⟩) v := by
  unfold getLoc linGetLocRectilinear
  simp only [aget_lt _ h, Res.ok_bind]

theorem MulticubicRegular.getLoc_form (s : MulticubicRegular T N) (v : T) {i : Nat}
    (h : i < N) : s.getLoc v i =
      cubGetLocRegular (s.dims ⟨i, h⟩) (s.starts ⟨i, h⟩) (s.steps ⟨i, h⟩) v := by
  unfold getLoc cubGetLocRegular
  simp only [aget_lt _ h, Res.ok_bind]
  cases toIsize (floor ((v -. s.starts ⟨i, h⟩) /. s.steps ⟨i, h⟩)) with
  | none => rfl
  | some z =>
    refine Res.bind_congr fun iloc _ => ?_
    split
    · rfl
    · split
      · rfl
      · refine Res.bind_congr fun n3 hn => ?_
        simp only [hn, Res.ok_bind]

theorem MulticubicRectilinear.getLoc_form (s : MulticubicRectilinear T N) (v : T) {i : Nat}
    (h : i < N) : s.getLoc v i = cubGetLocRectilinear (s.dims ⟨i, h⟩) (s.grids ⟨i, h⟩) v := by
  unfold getLoc cubGetLocRectilinear
  simp only [aget_lt _ h, Res.ok_bind]

theorem MultilinearRegularRecursive.getLoc_form (s : MultilinearRegularRecursive T M) (v : T)
    {i : Nat} (h : i < M) : s.getLoc v i =
      linGetLocRegular (s.dims ⟨i, h⟩) (s.starts ⟨i, h⟩) (s.steps ⟨i, h⟩) v := by
  unfold getLoc linGetLocRegular
  simp only [aget_lt _ h, Res.ok_bind]
  rfl

theorem MulticubicRegularRecursive.getLoc_form (s : MulticubicRegularRecursive T M) (v : T)
    {i : Nat} (h : i < M) : s.getLoc v i =
      cubGetLocRegular (s.dims ⟨i, h⟩) (s.starts ⟨i, h⟩) (s.steps ⟨i, h⟩) v := by
  unfold getLoc cubGetLocRegular
  simp only [aget_lt _ h, Res.ok_bind]
  cases toIsize (floor ((v -. s.starts ⟨i, h⟩) /. s.steps ⟨i, h⟩)) with
  | none => rfl
  | some z =>
    refine Res.bind_congr fun iloc _ => ?_
    split
    · rfl
    · split
      · rfl
      · refine Res.bind_congr fun n3 hn => ?_
        simp only [hn, Res.ok_bind]

theorem MultilinearRectilinearRecursive.getLoc_form (s : MultilinearRectilinearRecursive T M)
    (v : T) {i : Nat} (h : i < M) (hg : i < s.grids.length) :
    s.getLoc v i = linGetLocRectilinear (s.dims ⟨i, h⟩) s.grids[i] v := by
  unfold getLoc linGetLocRectilinear
  simp only [aget_lt _ h, lget_lt _ hg, Res.ok_bind]

theorem MulticubicRectilinearRecursive.getLoc_form (s : MulticubicRectilinearRecursive T M)
    (v : T) {i : Nat} (h : i < M) (hg : i < s.grids.length) :
    s.getLoc v i = cubGetLocRectilinear (s.dims ⟨i, h⟩) s.grids[i] v := by
  unfold getLoc cubGetLocRectilinear
  simp only [aget_lt _ h, lget_lt _ hg, Res.ok_bind]

end

/-! ### Flattened types: evaluation of one point -/

section
variable {N : Nat}

theorem MultilinearRegular.setup_form (fma : Bool) (s : MultilinearRegular T N)
    (x : Fin N → T) {β : Type} (f : (Fin N → Nat) → (Fin N → Nat) → (Fin N → T) → Res β) :
    (s.setup fma x >>= fun st => f st.2.1 st.2.2.1 st.2.2.2) =
    (flatSetup s.dims (0, zero) (s.axis fma x) >>= fun st =>
      f st.1 (fun k => (st.2 k).1) (fun k => (st.2 k).2)) := by
  have key : s.setup fma x = _ := forRange_map (n := N)
    (fun st : Nat × (Fin N → Nat) × (Fin N → Nat × T) =>
      (st.1, st.2.1, (fun k => (st.2.2 k).1), (fun k => (st.2.2 k).2)))
    (1, (fun _ => 1), (fun _ => (0, zero)))
    (body := fun i st => do
      let acc ← accStep s.dims i st.1
      let dimprod ← aset st.2.1 (N - i - 1) acc
      let axes ← aset st.2.2 i (← s.axis fma x i)
      return (acc, dimprod, axes)) (by
    intro i hi st
    simp only [accStep_form]
    rw [Res.bind_assoc]
    refine Res.bind_congr fun acc _ => ?_
    rw [Res.bind_assoc]
    refine Res.bind_congr fun dimprod _ => ?_
    unfold axis
    simp only [aget_lt _ hi, Res.ok_bind, s.getLoc_form _ hi]
    rw [Res.bind_assoc, Res.bind_assoc]
    refine Res.bind_congr fun o _ => ?_
    simp only [aset_lt _ hi, Res.ok_bind, if_true]
    cases (ofUsize o : Option T) with
    | none => rfl
    | some f =>
      simp only [Res.ok_bind, Res.pure_eq, aset_fst, aset_snd])
  rw [key]
  unfold flatSetup
  simp only [Res.bind_assoc, Res.ok_bind, Res.pure_eq]

theorem MultilinearRegular.vertexLoop_form (fma : Bool) (s : MultilinearRegular T N)
    (dimprod origin : Fin N → Nat) (dts : Fin N → T) :
    s.vertexLoop fma dimprod origin dts =
      forRange (2 ^ N) ((fun _ => 0), (fun _ _ => zero)) fun i st =>
        forRange N st fun j st => vertexStep offset2 origin dimprod s.vals
          (fun ind v => do return lerp fma (← aget dts ind) v) i j st := by
  unfold vertexLoop
  refine forRange_congr fun i _ st => forRange_congr fun j hj st => ?_
  obtain ⟨loc, store⟩ := st
  unfold vertexStep
  by_cases h0 : j = 0
  · simp only [if_pos h0]; rfl
  · simp only [if_neg h0]
    by_cases hl : (i + 1) % 2 ^ j = 0
    · simp only [if_pos hl, aget_lt store (show j - 1 < N by omega), Res.ok_bind,
        Res.bind_assoc, Res.pure_eq]
      rfl
    · simp only [if_neg hl]; rfl

theorem MultilinearRegular.interpOne_form (fma : Bool) (s : MultilinearRegular T N)
    (x : Fin N → T) :
    s.interpOne fma x = (do
      let (dimprod, axes) ← flatSetup s.dims (0, zero) (s.axis fma x)
      flatEval 2 zero offset2 (fun k => (axes k).1) dimprod s.vals fun ind v => do
        let a ← aget axes ind
        return lerp fma a.2 v) := by
  unfold interpOne
  refine (s.setup_form fma x fun dimprod origin dts => do
    let (_, store) ← s.vertexLoop fma dimprod origin dts
    let last ← usub N 1
    let y0 := (← aget store last) 0
    let dy := (← aget store last) 1 -. y0
    let t ← aget dts last
    let interped := if fma then mulAdd t dy y0 else y0 +. t *. dy
    return interped).trans ?_
  refine Res.bind_congr fun st _ => ?_
  have hget : ∀ ind, aget (fun k => (st.2 k).2) ind = (aget st.2 ind >>= fun a => .ok a.2) := by
    intro ind; unfold aget; split <;> rfl
  simp only [vertexLoop_form, flatEval, hget, Res.bind_assoc, Res.ok_bind, Res.pure_eq]
  refine Res.bind_congr fun st' _ => Res.bind_congr fun last _ => ?_
  cases aget st'.2 last <;> rfl

theorem aget_comp {α β : Type} (g : α → β) (a : Fin N → α) (i : Nat) :
    aget (fun k => g (a k)) i = (aget a i >>= fun v => .ok (g v)) := by
  unfold aget; split <;> rfl

theorem MultilinearRectilinear.setup_form (s : MultilinearRectilinear T N)
    (x : Fin N → T) {β : Type} (f : (Fin N → Nat) → (Fin N → Nat) → Res β) :
    (s.setup x >>= fun st => f st.2.1 st.2.2) =
    (flatSetup s.dims 0 (s.axis x) >>= fun st => f st.1 st.2) := by
  have key : s.setup x = _ := forRange_map (n := N)
    (fun st : Nat × (Fin N → Nat) × (Fin N → Nat) => st)
    (1, (fun _ => 1), (fun _ => 0))
    (body := fun i st => do
      let acc ← accStep s.dims i st.1
      let dimprod ← aset st.2.1 (N - i - 1) acc
      let axes ← aset st.2.2 i (← s.axis x i)
      return (acc, dimprod, axes)) (by
    intro i hi st
    simp only [accStep_form]
    rw [Res.bind_assoc]
    refine Res.bind_congr fun acc _ => ?_
    rw [Res.bind_assoc]
    refine Res.bind_congr fun dimprod _ => ?_
    unfold axis
    simp only [aget_lt _ hi, Res.ok_bind, s.getLoc_form _ hi, Res.bind_assoc, Res.pure_eq])
  rw [key]
  unfold flatSetup
  simp only [Res.bind_assoc, Res.ok_bind, Res.pure_eq]

theorem MultilinearRectilinear.vertexLoop_form (fma : Bool) (s : MultilinearRectilinear T N)
    (x : Fin N → T) (dimprod origin : Fin N → Nat) :
    s.vertexLoop fma x dimprod origin =
      forRange (2 ^ N) ((fun _ => 0), (fun _ _ => zero)) fun i st =>
        forRange N st fun j st => vertexStep offset2 origin dimprod s.vals
          (fun ind v => do
            lerpRectilinear fma (← aget s.grids ind) (← aget origin ind) (← aget x ind) v)
          i j st := by
  unfold vertexLoop
  refine forRange_congr fun i _ st => forRange_congr fun j hj st => ?_
  obtain ⟨loc, store⟩ := st
  unfold vertexStep
  by_cases h0 : j = 0
  · simp only [if_pos h0]; rfl
  · simp only [if_neg h0]
    by_cases hl : (i + 1) % 2 ^ j = 0
    · have hj1 : j - 1 < N := by omega
      simp only [if_pos hl, aget_lt _ hj1, lerpRectilinear, Res.ok_bind,
        Res.bind_assoc, Res.pure_eq]
      rfl
    · simp only [if_neg hl]; rfl

theorem MultilinearRectilinear.interpOne_form (fma : Bool) (s : MultilinearRectilinear T N)
    (x : Fin N → T) :
    s.interpOne fma x = (do
      let (dimprod, origin) ← flatSetup s.dims 0 (s.axis x)
      flatEval 2 zero offset2 origin dimprod s.vals fun ind v => do
        lerpRectilinear fma (← aget s.grids ind) (← aget origin ind) (← aget x ind) v) := by
  unfold interpOne
  refine (s.setup_form x fun dimprod origin => do
    let (_, store) ← s.vertexLoop fma x dimprod origin
    let ind ← usub N 1
    let x0 ← lget (← aget s.grids ind) (← aget origin ind)
    let x1 ← lget (← aget s.grids ind) (← uadd (← aget origin ind) 1)
    let step := x1 -. x0
    let t := ((← aget x ind) -. x0) /. step
    let y0 := (← aget store ind) 0
    let dy := (← aget store ind) 1 -. y0
    let interped := if fma then mulAdd t dy y0 else y0 +. t *. dy
    return interped).trans ?_
  refine Res.bind_congr fun st _ => ?_
  simp only [vertexLoop_form, flatEval, Res.pure_eq]
  refine Res.bind_congr fun st' _ => Res.bind_congr fun last hl => ?_
  by_cases h : last < N
  · simp only [aget_lt _ h, lerpRectilinear, Res.ok_bind, Res.pure_eq]
    rfl
  · have hp : ∀ {α : Type} (a : Fin N → α), aget a last = .panic := fun a => by
      unfold aget; rw [dif_neg h]
    simp only [hp, Res.panic_bind]

theorem NearestRegular.setup_form (fma : Bool) (s : NearestRegular T N)
    (x : Fin N → T) {β : Type} (f : (Fin N → Nat) → (Fin N → Nat) → Res β) :
    (s.setup fma x >>= fun st => f st.2.1 st.2.2) =
    (flatSetup s.dims 0 (s.axis fma x) >>= fun st => f st.1 st.2) := by
  have key : s.setup fma x = _ := forRange_map (n := N)
    (fun st : Nat × (Fin N → Nat) × (Fin N → Nat) => st)
    (1, (fun _ => 1), (fun _ => 0))
    (body := fun i st => do
      let acc ← accStep s.dims i st.1
      let dimprod ← aset st.2.1 (N - i - 1) acc
      let axes ← aset st.2.2 i (← s.axis fma x i)
      return (acc, dimprod, axes)) (by
    intro i hi st
    simp only [accStep_form]
    rw [Res.bind_assoc]
    refine Res.bind_congr fun acc _ => ?_
    rw [Res.bind_assoc]
    refine Res.bind_congr fun dimprod _ => ?_
    unfold axis
    simp only [aget_lt _ hi, Res.ok_bind, s.getLoc_form _ hi]
    rw [Res.bind_assoc, Res.bind_assoc]
    refine Res.bind_congr fun o _ => ?_
    cases (ofUsize o : Option T) with
    | none => rfl
    | some f =>
      simp only [Res.bind_assoc, Res.ok_bind, Res.pure_eq]
      rfl)
  rw [key]
  unfold flatSetup
  simp only [Res.bind_assoc, Res.ok_bind, Res.pure_eq]

theorem NearestRegular.interpOne_form (fma : Bool) (s : NearestRegular T N) (x : Fin N → T) :
    s.interpOne fma x = (do
      let (dimprod, loc) ← flatSetup s.dims 0 (s.axis fma x)
      indexArr loc dimprod s.vals) := by
  unfold interpOne
  exact s.setup_form fma x fun dimprod loc => indexArrFixedDims loc dimprod s.vals

theorem NearestRectilinear.setup_form (s : NearestRectilinear T N)
    (x : Fin N → T) {β : Type} (f : (Fin N → Nat) → (Fin N → Nat) → Res β) :
    (s.setup x >>= fun st => f st.2.1 st.2.2) =
    (flatSetup s.dims 0 (s.axis x) >>= fun st => f st.1 st.2) := by
  have key : s.setup x = _ := forRange_map (n := N)
    (fun st : Nat × (Fin N → Nat) × (Fin N → Nat) => st)
    (1, (fun _ => 1), (fun _ => 0))
    (body := fun i st => do
      let acc ← accStep s.dims i st.1
      let dimprod ← aset st.2.1 (N - i - 1) acc
      let axes ← aset st.2.2 i (← s.axis x i)
      return (acc, dimprod, axes)) (by
    intro i hi st
    simp only [accStep_form]
    rw [Res.bind_assoc]
    refine Res.bind_congr fun acc _ => ?_
    rw [Res.bind_assoc]
    refine Res.bind_congr fun dimprod _ => ?_
    unfold axis
    simp only [aget_lt _ hi, Res.ok_bind, s.getLoc_form _ hi, Res.bind_assoc, Res.pure_eq]
    rfl)
  rw [key]
  unfold flatSetup
  simp only [Res.bind_assoc, Res.ok_bind, Res.pure_eq]

theorem NearestRectilinear.interpOne_form (s : NearestRectilinear T N) (x : Fin N → T) :
    s.interpOne x = (do
      let (dimprod, loc) ← flatSetup s.dims 0 (s.axis x)
      indexArr loc dimprod s.vals) := by
  unfold interpOne
  exact s.setup_form x fun dimprod loc => indexArrFixedDims loc dimprod s.vals

theorem MulticubicRegular.interpInner_form (fma : Bool) (v : Fin 4 → T) (t : T)
    (sat : Saturation) (lin : Bool) :
    interpInner fma v t sat lin = cubicInnerRegular fma fma v t sat lin := by
  cases sat <;> rfl

theorem MulticubicRegularRecursive.interpInner_form (fma : Bool) (v : Fin 4 → T) (t : T)
    (sat : Saturation) (lin : Bool) :
    interpInner fma v t sat lin = cubicInnerRegular fma false v t sat lin := by
  cases sat <;> rfl

theorem MulticubicRectilinear.interpInner_form (fma : Bool) (v g : Fin 4 → T) (x : T)
    (sat : Saturation) (lin : Bool) :
    interpInner fma v g x sat lin = cubicInnerRectilinear fma false false v g x sat lin := by
  cases sat <;> rfl

theorem MulticubicRectilinearRecursive.interpInner_form (fma : Bool) (v g : Fin 4 → T) (x : T)
    (sat : Saturation) (lin : Bool) :
    interpInner fma v g x sat lin = cubicInnerRectilinear fma fma fma v g x sat lin := by
  cases sat <;> rfl

theorem MulticubicRegular.setup_form (s : MulticubicRegular T N) (x : Fin N → T) {β : Type}
    (f : (Fin N → Nat) → (Fin N → Nat) → (Fin N → Saturation) → (Fin N → T) → Res β) :
    (s.setup x >>= fun st => f st.2.1 st.2.2.1 st.2.2.2.1 st.2.2.2.2) =
    (flatSetup s.dims (0, .none, zero) (s.axis x) >>= fun st =>
      f st.1 (fun k => (st.2 k).1) (fun k => (st.2 k).2.1) (fun k => (st.2 k).2.2)) := by
  have key : s.setup x = _ := forRange_map (n := N)
    (fun st : Nat × (Fin N → Nat) × (Fin N → Nat × Saturation × T) =>
      (st.1, st.2.1, (fun k => (st.2.2 k).1), (fun k => (st.2.2 k).2.1),
        (fun k => (st.2.2 k).2.2)))
    (1, (fun _ => 1), (fun _ => (0, .none, zero)))
    (body := fun i st => do
      let acc ← accStep s.dims i st.1
      let dimprod ← aset st.2.1 (N - i - 1) acc
      let axes ← aset st.2.2 i (← s.axis x i)
      return (acc, dimprod, axes)) (by
    intro i hi st
    simp only [accStep_form]
    rw [Res.bind_assoc]
    refine Res.bind_congr fun acc _ => ?_
    rw [Res.bind_assoc]
    refine Res.bind_congr fun dimprod _ => ?_
    unfold axis cubicDt
    simp only [aget_lt _ hi, Res.ok_bind, s.getLoc_form _ hi]
    rw [Res.bind_assoc, Res.bind_assoc]
    refine Res.bind_congr fun o _ => ?_
    simp only [aset_lt _ hi, Res.ok_bind, if_true, Res.bind_assoc]
    refine Res.bind_congr fun o1 _ => ?_
    cases (ofUsize o1 : Option T) with
    | none => rfl
    | some f =>
      simp only [Res.ok_bind, Res.pure_eq]
      refine congrArg Res.ok ?_
      simp only [Prod.mk.injEq, true_and]
      refine ⟨?_, ?_, ?_⟩ <;> (funext k; split <;> rfl))
  rw [key]
  unfold flatSetup
  simp only [Res.bind_assoc, Res.ok_bind, Res.pure_eq]

theorem MulticubicRegular.vertexLoop_form (fma : Bool) (s : MulticubicRegular T N)
    (dimprod origin : Fin N → Nat) (sat : Fin N → Saturation) (dts : Fin N → T) :
    s.vertexLoop fma dimprod origin sat dts =
      forRange (4 ^ N) ((fun _ => 0), (fun _ _ => zero)) fun i st =>
        forRange N st fun j st => vertexStep offset4 origin dimprod s.vals
          (fun ind v => do
            return cubicInnerRegular fma fma v (← aget dts ind) (← aget sat ind) s.lin)
          i j st := by
  unfold vertexLoop
  refine forRange_congr fun i _ st => forRange_congr fun j hj st => ?_
  obtain ⟨loc, store⟩ := st
  unfold vertexStep
  by_cases h0 : j = 0
  · simp only [if_pos h0]; rfl
  · simp only [if_neg h0]
    by_cases hl : (i + 1) % 4 ^ j = 0
    · have hj1 : j - 1 < N := by omega
      simp only [if_pos hl, aget_lt _ hj1, interpInner_form, Res.ok_bind, Res.pure_eq]
    · simp only [if_neg hl]; rfl

theorem MulticubicRegular.interpOne_form (fma : Bool) (s : MulticubicRegular T N)
    (x : Fin N → T) :
    s.interpOne fma x = (do
      let (dimprod, axes) ← flatSetup s.dims (0, .none, zero) (s.axis x)
      flatEval 4 zero offset4 (fun k => (axes k).1) dimprod s.vals fun ind v => do
        let a ← aget axes ind
        return cubicInnerRegular fma fma v a.2.2 a.2.1 s.lin) := by
  unfold interpOne
  refine (s.setup_form x fun dimprod origin sat dts => do
    let (_, store) ← s.vertexLoop fma dimprod origin sat dts
    let last ← usub N 1
    let interped := interpInner fma (← aget store last) (← aget dts last) (← aget sat last) s.lin
    return interped).trans ?_
  refine Res.bind_congr fun st _ => ?_
  have h1 : ∀ ind, aget (fun k => (st.2 k).2.2) ind = _ :=
    aget_comp (fun a : Nat × Saturation × T => a.2.2) st.2
  have h2 : ∀ ind, aget (fun k => (st.2 k).2.1) ind = _ :=
    aget_comp (fun a : Nat × Saturation × T => a.2.1) st.2
  simp only [vertexLoop_form, flatEval, Res.pure_eq, interpInner_form]
  have hnode : (fun (ind : Nat) (v : Fin 4 → T) => (do
      let dt ← aget (fun k => (st.2 k).2.2) ind
      let sa ← aget (fun k => (st.2 k).2.1) ind
      Res.ok (cubicInnerRegular fma fma v dt sa s.lin))) = (fun ind v => (do
        let a ← aget st.2 ind
        Res.ok (cubicInnerRegular fma fma v a.2.2 a.2.1 s.lin))) := by
    funext ind v
    rw [h1, h2]
    cases aget st.2 ind <;> rfl
  rw [hnode]
  refine Res.bind_congr fun st' _ => Res.bind_congr fun last _ => ?_
  refine Res.bind_congr fun v _ => ?_
  exact congrFun (congrFun hnode last) v

theorem MulticubicRectilinear.setup_form (s : MulticubicRectilinear T N) (x : Fin N → T)
    {β : Type} (f : (Fin N → Nat) → (Fin N → Nat) → (Fin N → Saturation) → Res β) :
    (s.setup x >>= fun st => f st.2.1 st.2.2.1 st.2.2.2) =
    (flatSetup s.dims (0, .none) (s.axis x) >>= fun st =>
      f st.1 (fun k => (st.2 k).1) (fun k => (st.2 k).2)) := by
  have key : s.setup x = _ := forRange_map (n := N)
    (fun st : Nat × (Fin N → Nat) × (Fin N → Nat × Saturation) =>
      (st.1, st.2.1, (fun k => (st.2.2 k).1), (fun k => (st.2.2 k).2)))
    (1, (fun _ => 1), (fun _ => (0, .none)))
    (body := fun i st => do
      let acc ← accStep s.dims i st.1
      let dimprod ← aset st.2.1 (N - i - 1) acc
      let axes ← aset st.2.2 i (← s.axis x i)
      return (acc, dimprod, axes)) (by
    intro i hi st
    simp only [accStep_form]
    rw [Res.bind_assoc]
    refine Res.bind_congr fun acc _ => ?_
    rw [Res.bind_assoc]
    refine Res.bind_congr fun dimprod _ => ?_
    unfold axis
    simp only [aget_lt _ hi, Res.ok_bind, s.getLoc_form _ hi, aset_lt _ hi, Res.bind_assoc,
      Res.pure_eq, aset_fst, aset_snd])
  rw [key]
  unfold flatSetup
  simp only [Res.bind_assoc, Res.ok_bind, Res.pure_eq]

theorem MulticubicRectilinear.vertexLoop_form (fma : Bool) (s : MulticubicRectilinear T N)
    (x : Fin N → T) (dimprod origin : Fin N → Nat) (sat : Fin N → Saturation) :
    s.vertexLoop fma x dimprod origin sat =
      forRange (4 ^ N) ((fun _ => 0), (fun _ _ => zero)) fun i st =>
        forRange N st fun j st => vertexStep offset4 origin dimprod s.vals
          (fun ind v => do
            let g ← gridCell (← aget s.grids ind) (← aget origin ind)
            return cubicInnerRectilinear fma false false v g (← aget x ind) (← aget sat ind)
              s.lin)
          i j st := by
  unfold vertexLoop
  refine forRange_congr fun i _ st => forRange_congr fun j hj st => ?_
  obtain ⟨loc, store⟩ := st
  unfold vertexStep
  by_cases h0 : j = 0
  · simp only [if_pos h0]; rfl
  · simp only [if_neg h0]
    by_cases hl : (i + 1) % 4 ^ j = 0
    · have hj1 : j - 1 < N := by omega
      simp only [if_pos hl, aget_lt _ hj1, interpInner_form, Res.ok_bind, Res.pure_eq,
        Res.bind_assoc]
    · simp only [if_neg hl]; rfl

theorem MulticubicRectilinear.interpOne_form (fma : Bool) (s : MulticubicRectilinear T N)
    (x : Fin N → T) :
    s.interpOne fma x = (do
      let (dimprod, axes) ← flatSetup s.dims (0, .none) (s.axis x)
      flatEval 4 zero offset4 (fun k => (axes k).1) dimprod s.vals fun ind v => do
        let a ← aget axes ind
        let g ← gridCell (← aget s.grids ind) a.1
        return cubicInnerRectilinear fma false false v g (← aget x ind) a.2 s.lin) := by
  unfold interpOne
  refine (s.setup_form x fun dimprod origin sat => do
    let (_, store) ← s.vertexLoop fma x dimprod origin sat
    let last ← usub N 1
    let grid_cell ← gridCell (← aget s.grids last) (← aget origin last)
    let interped := interpInner fma (← aget store last) grid_cell (← aget x last)
      (← aget sat last) s.lin
    return interped).trans ?_
  refine Res.bind_congr fun st _ => ?_
  have hp : ∀ {ind : Nat}, ¬ ind < N → ∀ {α : Type} (a : Fin N → α), aget a ind = .panic :=
    by
    intro ind h α a; unfold aget; rw [dif_neg h]
  simp only [vertexLoop_form, flatEval, Res.pure_eq, interpInner_form]
  have hnode : (fun (ind : Nat) (v : Fin 4 → T) => (do
      let gr ← aget s.grids ind
      let o ← aget (fun k => (st.2 k).1) ind
      let g ← gridCell gr o
      let xi ← aget x ind
      let sa ← aget (fun k => (st.2 k).2) ind
      Res.ok (cubicInnerRectilinear fma false false v g xi sa s.lin))) = (fun ind v => (do
        let a ← aget st.2 ind
        let gr ← aget s.grids ind
        let g ← gridCell gr a.1
        let xi ← aget x ind
        Res.ok (cubicInnerRectilinear fma false false v g xi a.2 s.lin))) := by
    funext ind v
    by_cases h : ind < N
    · simp only [aget_lt _ h, Res.ok_bind]
    · simp only [hp h, Res.panic_bind]
  rw [hnode]
  refine Res.bind_congr fun st' _ => Res.bind_congr fun last _ => ?_
  by_cases h : last < N
  · simp only [aget_lt _ h, Res.ok_bind]
  · simp only [hp h, Res.panic_bind]

end
end Interpn
