import Verif.Lemmas.Counted
import Verif.Model.Counted.Multilinear
import Verif.Model.Counted.Multicubic
import Verif.Model.Counted.Nearest

/-! The counting copies compute what the model computes. -/

set_option autoImplicit false
set_option linter.unusedSimpArgs false
set_option linter.unusedSectionVars false
set_option linter.unnecessarySeqFocus false

open Interpn.FloatOps

namespace Interpn.Counted
variable {T : Type} [FloatOps T] {N M : Nat}

theorem MultilinearRegular.outcome_getLoc (s : Interpn.MultilinearRegular T N) (v : T) (k : Nat) :
    (MultilinearRegular.getLoc s v k).1 = s.getLoc v k := by
  unfold MultilinearRegular.getLoc Interpn.MultilinearRegular.getLoc
  simp only [outcome_bind, outcome_liftM]
  refine bind_congr fun a => bind_congr fun b => ?_
  split <;> rename_i h <;> simp only [h, outcome_bind, outcome_liftM, outcome_pure] <;> rfl

theorem MultilinearRegular.outcome_setup (fma : Bool) (s : Interpn.MultilinearRegular T N)
    (x : Fin N → T) : (MultilinearRegular.setup fma s x).1 = s.setup fma x := by
  unfold MultilinearRegular.setup Interpn.MultilinearRegular.setup
  rw [outcome_forRange]
  congr 1
  funext i ⟨acc, dimprod, origin, dts⟩
  simp only [outcome_bind, outcome_liftM, MultilinearRegular.outcome_getLoc]
  refine bind_congr fun a0 => bind_congr fun a1 => bind_congr fun a2 => bind_congr fun a3 => bind_congr fun a4 => bind_congr fun a5 => ?_
  split <;> rename_i h <;> simp only [h, outcome_bind, outcome_liftM, outcome_pure] <;> rfl

theorem MultilinearRegular.outcome_vertexLoop (fma : Bool) (s : Interpn.MultilinearRegular T N)
    (dimprod origin : Fin N → Nat) (dts : Fin N → T) :
    (MultilinearRegular.vertexLoop fma s dimprod origin dts).1 =
      s.vertexLoop fma dimprod origin dts := by
  unfold MultilinearRegular.vertexLoop Interpn.MultilinearRegular.vertexLoop
  simp only [outcome_forRange]
  congr 1
  funext i st
  congr 1
  funext j ⟨loc, store⟩
  simp only [outcome_bind, outcome_liftM, outcome_pure, outcome_err, outcome_tick, outcome_ite, outcome_forRange,
    outcome_indexArr, outcome_indexArrFixedDims, outcome_partitionPoint, Res.ok_bind]
  rfl

theorem MultilinearRegular.outcome_interpOne (fma : Bool) (s : Interpn.MultilinearRegular T N)
    (x : Fin N → T) : (MultilinearRegular.interpOne fma s x).1 = s.interpOne fma x := by
  unfold MultilinearRegular.interpOne Interpn.MultilinearRegular.interpOne
  rw [outcome_bind, MultilinearRegular.outcome_setup]
  refine bind_congr fun ⟨_, dimprod, origin, dts⟩ => ?_
  simp only [outcome_bind, MultilinearRegular.outcome_vertexLoop]
  refine bind_congr fun ⟨_, store⟩ => ?_
  simp only [outcome_bind, outcome_liftM, outcome_pure, outcome_err, outcome_tick, outcome_ite, outcome_forRange,
    outcome_indexArr, outcome_indexArrFixedDims, outcome_partitionPoint, Res.ok_bind]
  rfl

theorem MultilinearRegular.outcome_interp (fma : Bool) (s : Interpn.MultilinearRegular T N)
    (x : Fin N → List T) (out : List T) :
    (MultilinearRegular.interp fma s x out).1 = s.interp fma x out := by
  unfold MultilinearRegular.interp Interpn.MultilinearRegular.interp
  simp only
  split
  · rfl
  · rw [outcome_batchLoop]
    congr 1
    funext i
    simp only [outcome_bind, outcome_forRange, outcome_liftM, MultilinearRegular.outcome_interpOne]

theorem MultilinearRegularRecursive.outcome_getLoc (s : Interpn.MultilinearRegularRecursive T M) (v : T) (k : Nat) :
    (MultilinearRegularRecursive.getLoc s v k).1 = s.getLoc v k := by
  unfold MultilinearRegularRecursive.getLoc Interpn.MultilinearRegularRecursive.getLoc
  simp only [outcome_bind, outcome_liftM]
  refine bind_congr fun a => bind_congr fun b => ?_
  split <;> rename_i h <;> simp only [h, outcome_bind, outcome_liftM, outcome_pure] <;> rfl

theorem MultilinearRegularRecursive.outcome_populate (fma : Bool) (s : Interpn.MultilinearRegularRecursive T M)
    {n : Nat} (origin dimprod : Fin n → Nat) (dts : Fin n → T) (d : Nat)
    (loc : Fin n → Nat) :
    (MultilinearRegularRecursive.populate fma s origin dimprod dts d loc).1 =
      s.populate fma origin dimprod dts d loc := by
  induction d generalizing loc with
  | zero =>
    unfold MultilinearRegularRecursive.populate Interpn.MultilinearRegularRecursive.populate
    simp only [outcome_bind, outcome_liftM, outcome_pure, outcome_err, outcome_tick, outcome_ite, outcome_forRange,
    outcome_indexArr, outcome_indexArrFixedDims, outcome_partitionPoint, Res.ok_bind]
    rfl
  | succ d ih =>
    unfold MultilinearRegularRecursive.populate Interpn.MultilinearRegularRecursive.populate
    rw [outcome_bind, outcome_forRange]
    refine congrArg₂ _ ?_ ?_
    · congr 1
      funext i ⟨vals, loc⟩
      simp only [outcome_bind, outcome_liftM, ih]
      refine bind_congr fun a => bind_congr fun b => bind_congr fun c => bind_congr fun ⟨v, l⟩ => ?_
      simp only [outcome_bind, outcome_liftM, outcome_pure]
      rfl
    · funext ⟨vals, loc⟩
      simp only [outcome_bind, outcome_liftM, outcome_pure, outcome_err, outcome_tick, outcome_ite, outcome_forRange,
    outcome_indexArr, outcome_indexArrFixedDims, outcome_partitionPoint, Res.ok_bind]
      rfl

theorem MultilinearRegularRecursive.outcome_strideLoop (s : Interpn.MultilinearRegularRecursive T M) :
    (MultilinearRegularRecursive.strideLoop s).1 = s.strideLoop := by
  unfold MultilinearRegularRecursive.strideLoop Interpn.MultilinearRegularRecursive.strideLoop
  rw [outcome_bind, outcome_forRange]
  refine congrArg₂ _ ?_ ?_
  · congr 1
    funext i ⟨acc, dimprod⟩
    simp only [outcome_bind, outcome_liftM, outcome_pure, outcome_err, outcome_tick, outcome_ite, outcome_forRange,
    outcome_indexArr, outcome_indexArrFixedDims, outcome_partitionPoint, Res.ok_bind]
    rfl
  · funext ⟨acc, dimprod⟩
    rfl

theorem MultilinearRegularRecursive.outcome_interpOne (fma : Bool) (s : Interpn.MultilinearRegularRecursive T M)
    (x : List T) : (MultilinearRegularRecursive.interpOne fma s x).1 = s.interpOne fma x := by
  unfold MultilinearRegularRecursive.interpOne Interpn.MultilinearRegularRecursive.interpOne
  simp only
  split
  · rw [outcome_bind, MultilinearRegularRecursive.outcome_strideLoop]
    refine bind_congr fun dimprod => ?_
    rw [outcome_bind, outcome_forRange]
    refine congrArg₂ _ ?_ ?_
    · congr 1
      funext i origin
      simp only [outcome_bind, outcome_liftM, MultilinearRegularRecursive.outcome_getLoc]
    · funext origin
      rw [outcome_bind, outcome_forRange]
      refine congrArg₂ _ ?_ ?_
      · congr 1
        funext i dts
        simp only [outcome_bind, outcome_liftM]
        refine bind_congr fun a => ?_
        split <;> rename_i h <;> simp only [h, outcome_bind, outcome_liftM] <;> rfl
      · funext dts
        rw [outcome_bind, MultilinearRegularRecursive.outcome_populate]
        refine bind_congr fun ⟨_, _⟩ => rfl
  · rfl

theorem MultilinearRegularRecursive.outcome_interp (fma : Bool) (s : Interpn.MultilinearRegularRecursive T M)
    (x : List (List T)) (out : List T) :
    (MultilinearRegularRecursive.interp fma s x out).1 = s.interp fma x out := by
  unfold MultilinearRegularRecursive.interp Interpn.MultilinearRegularRecursive.interp
  simp only
  split
  · rfl
  split
  · rfl
  split
  · rfl
  · rw [outcome_batchLoop]
    congr 1
    funext i
    simp only [outcome_bind, outcome_forRange, outcome_liftM, MultilinearRegularRecursive.outcome_interpOne]

theorem MultilinearRectilinear.outcome_getLoc (s : Interpn.MultilinearRectilinear T N) (v : T) (k : Nat) :
    (MultilinearRectilinear.getLoc s v k).1 = s.getLoc v k := by
  unfold MultilinearRectilinear.getLoc Interpn.MultilinearRectilinear.getLoc
  simp only [outcome_bind, outcome_liftM, outcome_pure, outcome_err, outcome_tick, outcome_ite, outcome_forRange,
    outcome_indexArr, outcome_indexArrFixedDims, outcome_partitionPoint, Res.ok_bind]
  rfl

theorem MultilinearRectilinear.outcome_setup (s : Interpn.MultilinearRectilinear T N)
    (x : Fin N → T) : (MultilinearRectilinear.setup s x).1 = s.setup x := by
  unfold MultilinearRectilinear.setup Interpn.MultilinearRectilinear.setup
  rw [outcome_forRange]
  congr 1
  funext i ⟨acc, dimprod, origin⟩
  simp only [MultilinearRectilinear.outcome_getLoc, outcome_bind, outcome_liftM, outcome_pure, outcome_err, outcome_tick, outcome_ite, outcome_forRange,
    outcome_indexArr, outcome_indexArrFixedDims, outcome_partitionPoint, Res.ok_bind]
  rfl

theorem MultilinearRectilinear.outcome_vertexLoop (fma : Bool) (s : Interpn.MultilinearRectilinear T N)
    (x : Fin N → T) (dimprod origin : Fin N → Nat) :
    (MultilinearRectilinear.vertexLoop fma s x dimprod origin).1 =
      s.vertexLoop fma x dimprod origin := by
  unfold MultilinearRectilinear.vertexLoop Interpn.MultilinearRectilinear.vertexLoop
  simp only [outcome_forRange]
  congr 1
  funext i st
  congr 1
  funext j ⟨loc, store⟩
  simp only [outcome_bind, outcome_liftM, outcome_pure, outcome_err, outcome_tick, outcome_ite, outcome_forRange,
    outcome_indexArr, outcome_indexArrFixedDims, outcome_partitionPoint, Res.ok_bind]
  rfl

theorem MultilinearRectilinear.outcome_interpOne (fma : Bool) (s : Interpn.MultilinearRectilinear T N)
    (x : Fin N → T) : (MultilinearRectilinear.interpOne fma s x).1 = s.interpOne fma x := by
  unfold MultilinearRectilinear.interpOne Interpn.MultilinearRectilinear.interpOne
  rw [outcome_bind, MultilinearRectilinear.outcome_setup]
  refine bind_congr fun ⟨_, dimprod, origin⟩ => ?_
  simp only [outcome_bind, MultilinearRectilinear.outcome_vertexLoop]
  refine bind_congr fun ⟨_, store⟩ => ?_
  simp only [outcome_bind, outcome_liftM, outcome_pure, outcome_err, outcome_tick, outcome_ite, outcome_forRange,
    outcome_indexArr, outcome_indexArrFixedDims, outcome_partitionPoint, Res.ok_bind]
  rfl

theorem MultilinearRectilinear.outcome_interp (fma : Bool) (s : Interpn.MultilinearRectilinear T N)
    (x : Fin N → List T) (out : List T) :
    (MultilinearRectilinear.interp fma s x out).1 = s.interp fma x out := by
  unfold MultilinearRectilinear.interp Interpn.MultilinearRectilinear.interp
  simp only
  split
  · rfl
  · rw [outcome_batchLoop]
    congr 1
    funext i
    simp only [outcome_bind, outcome_forRange, outcome_liftM, MultilinearRectilinear.outcome_interpOne]

theorem MultilinearRectilinearRecursive.outcome_getLoc (s : Interpn.MultilinearRectilinearRecursive T M) (v : T) (k : Nat) :
    (MultilinearRectilinearRecursive.getLoc s v k).1 = s.getLoc v k := by
  unfold MultilinearRectilinearRecursive.getLoc Interpn.MultilinearRectilinearRecursive.getLoc
  simp only [outcome_bind, outcome_liftM, outcome_pure, outcome_err, outcome_tick, outcome_ite, outcome_forRange,
    outcome_indexArr, outcome_indexArrFixedDims, outcome_partitionPoint, Res.ok_bind]
  rfl

theorem MultilinearRectilinearRecursive.outcome_populate (fma : Bool) (s : Interpn.MultilinearRectilinearRecursive T M)
    {n : Nat} (origin dimprod : Fin n → Nat) (x : Fin n → T) (d : Nat)
    (loc : Fin n → Nat) :
    (MultilinearRectilinearRecursive.populate fma s origin dimprod x d loc).1 =
      s.populate fma origin dimprod x d loc := by
  induction d generalizing loc with
  | zero =>
    unfold MultilinearRectilinearRecursive.populate Interpn.MultilinearRectilinearRecursive.populate
    simp only [outcome_bind, outcome_liftM, outcome_pure, outcome_err, outcome_tick, outcome_ite, outcome_forRange,
    outcome_indexArr, outcome_indexArrFixedDims, outcome_partitionPoint, Res.ok_bind]
    rfl
  | succ d ih =>
    unfold MultilinearRectilinearRecursive.populate Interpn.MultilinearRectilinearRecursive.populate
    rw [outcome_bind, outcome_forRange]
    refine congrArg₂ _ ?_ ?_
    · congr 1
      funext i ⟨vals, loc⟩
      simp only [outcome_bind, outcome_liftM, ih]
      refine bind_congr fun a => bind_congr fun b => bind_congr fun c => bind_congr fun ⟨v, l⟩ => ?_
      simp only [outcome_bind, outcome_liftM, outcome_pure]
      rfl
    · funext ⟨vals, loc⟩
      simp only [outcome_bind, outcome_liftM, outcome_pure, outcome_err, outcome_tick, outcome_ite, outcome_forRange,
    outcome_indexArr, outcome_indexArrFixedDims, outcome_partitionPoint, Res.ok_bind]
      rfl

theorem MultilinearRectilinearRecursive.outcome_strideLoop (s : Interpn.MultilinearRectilinearRecursive T M) :
    (MultilinearRectilinearRecursive.strideLoop s).1 = s.strideLoop := by
  unfold MultilinearRectilinearRecursive.strideLoop Interpn.MultilinearRectilinearRecursive.strideLoop
  rw [outcome_bind, outcome_forRange]
  refine congrArg₂ _ ?_ ?_
  · congr 1
    funext i ⟨acc, dimprod⟩
    simp only [outcome_bind, outcome_liftM, outcome_pure, outcome_err, outcome_tick, outcome_ite, outcome_forRange,
    outcome_indexArr, outcome_indexArrFixedDims, outcome_partitionPoint, Res.ok_bind]
    rfl
  · funext ⟨acc, dimprod⟩
    rfl

theorem MultilinearRectilinearRecursive.outcome_interpOne (fma : Bool) (s : Interpn.MultilinearRectilinearRecursive T M)
    (x : List T) : (MultilinearRectilinearRecursive.interpOne fma s x).1 = s.interpOne fma x := by
  unfold MultilinearRectilinearRecursive.interpOne Interpn.MultilinearRectilinearRecursive.interpOne
  simp only
  split
  · rw [outcome_bind, MultilinearRectilinearRecursive.outcome_strideLoop]
    refine bind_congr fun dimprod => ?_
    rw [outcome_bind, outcome_forRange]
    refine congrArg₂ _ ?_ ?_
    · congr 1
      funext i origin
      simp only [outcome_bind, outcome_liftM, MultilinearRectilinearRecursive.outcome_getLoc]
    · funext origin
      rw [outcome_bind, MultilinearRectilinearRecursive.outcome_populate]
      refine bind_congr fun ⟨_, _⟩ => rfl
  · rfl

theorem MultilinearRectilinearRecursive.outcome_interp (fma : Bool) (s : Interpn.MultilinearRectilinearRecursive T M)
    (x : List (List T)) (out : List T) :
    (MultilinearRectilinearRecursive.interp fma s x out).1 = s.interp fma x out := by
  unfold MultilinearRectilinearRecursive.interp Interpn.MultilinearRectilinearRecursive.interp
  simp only
  split
  · rfl
  split
  · rfl
  split
  · rfl
  · rw [outcome_batchLoop]
    congr 1
    funext i
    simp only [outcome_bind, outcome_forRange, outcome_liftM, MultilinearRectilinearRecursive.outcome_interpOne]

theorem MulticubicRegular.outcome_getLoc (s : Interpn.MulticubicRegular T N) (v : T) (k : Nat) :
    (MulticubicRegular.getLoc s v k).1 = s.getLoc v k := by
  unfold MulticubicRegular.getLoc Interpn.MulticubicRegular.getLoc
  simp only [outcome_bind, outcome_liftM]
  refine bind_congr fun a => bind_congr fun b => ?_
  split <;> rename_i h <;> simp only [h, outcome_bind, outcome_liftM, outcome_pure, outcome_ite]
  all_goals rfl

theorem MulticubicRegular.outcome_setup (s : Interpn.MulticubicRegular T N)
    (x : Fin N → T) : (MulticubicRegular.setup s x).1 = s.setup x := by
  unfold MulticubicRegular.setup Interpn.MulticubicRegular.setup
  rw [outcome_forRange]
  congr 1
  funext i ⟨acc, dimprod, origin, sat, dts⟩
  simp only [outcome_bind, outcome_liftM, MulticubicRegular.outcome_getLoc]
  refine bind_congr fun a => bind_congr fun b => bind_congr fun c => bind_congr fun ⟨o, st⟩ => ?_
  simp only [outcome_bind, outcome_liftM]
  refine bind_congr fun e => bind_congr fun f => bind_congr fun g => bind_congr fun h => ?_
  split <;> rename_i h <;> simp only [h, outcome_bind, outcome_liftM, outcome_pure] <;> rfl

theorem MulticubicRegular.outcome_vertexLoop (fma : Bool) (s : Interpn.MulticubicRegular T N)
    (dimprod origin : Fin N → Nat) (sat : Fin N → Saturation) (dts : Fin N → T) :
    (MulticubicRegular.vertexLoop fma s dimprod origin sat dts).1 =
      s.vertexLoop fma dimprod origin sat dts := by
  unfold MulticubicRegular.vertexLoop Interpn.MulticubicRegular.vertexLoop
  simp only [outcome_forRange]
  congr 1
  funext i st
  congr 1
  funext j ⟨loc, store⟩
  simp only [outcome_bind, outcome_liftM, outcome_pure, outcome_err, outcome_tick, outcome_ite, outcome_forRange,
    outcome_indexArr, outcome_indexArrFixedDims, outcome_partitionPoint, Res.ok_bind]
  rfl

theorem MulticubicRegular.outcome_interpOne (fma : Bool) (s : Interpn.MulticubicRegular T N)
    (x : Fin N → T) : (MulticubicRegular.interpOne fma s x).1 = s.interpOne fma x := by
  unfold MulticubicRegular.interpOne Interpn.MulticubicRegular.interpOne
  rw [outcome_bind, MulticubicRegular.outcome_setup]
  refine bind_congr fun ⟨_, dimprod, origin, sat, dts⟩ => ?_
  simp only [outcome_bind, MulticubicRegular.outcome_vertexLoop]
  refine bind_congr fun ⟨_, store⟩ => ?_
  simp only [outcome_bind, outcome_liftM, outcome_pure, outcome_err, outcome_tick, outcome_ite, outcome_forRange,
    outcome_indexArr, outcome_indexArrFixedDims, outcome_partitionPoint, Res.ok_bind]
  rfl

theorem MulticubicRegular.outcome_interp (fma : Bool) (s : Interpn.MulticubicRegular T N)
    (x : Fin N → List T) (out : List T) :
    (MulticubicRegular.interp fma s x out).1 = s.interp fma x out := by
  unfold MulticubicRegular.interp Interpn.MulticubicRegular.interp
  simp only
  split
  · rfl
  · rw [outcome_batchLoop]
    congr 1
    funext i
    simp only [outcome_bind, outcome_forRange, outcome_liftM, MulticubicRegular.outcome_interpOne]

theorem MulticubicRegularRecursive.outcome_getLoc (s : Interpn.MulticubicRegularRecursive T M) (v : T) (k : Nat) :
    (MulticubicRegularRecursive.getLoc s v k).1 = s.getLoc v k := by
  unfold MulticubicRegularRecursive.getLoc Interpn.MulticubicRegularRecursive.getLoc
  simp only [outcome_bind, outcome_liftM]
  refine bind_congr fun a => bind_congr fun b => ?_
  split <;> rename_i h <;> simp only [h, outcome_bind, outcome_liftM, outcome_pure, outcome_ite]
  all_goals rfl

theorem MulticubicRegularRecursive.outcome_populate (fma : Bool) (s : Interpn.MulticubicRegularRecursive T M)
    {n : Nat} (sat : Fin n → Saturation) (origin dimprod : Fin n → Nat) (dts : Fin n → T) (d : Nat)
    (loc : Fin n → Nat) :
    (MulticubicRegularRecursive.populate fma s sat origin dimprod dts d loc).1 =
      s.populate fma sat origin dimprod dts d loc := by
  induction d generalizing loc with
  | zero =>
    unfold MulticubicRegularRecursive.populate Interpn.MulticubicRegularRecursive.populate
    simp only [outcome_bind, outcome_liftM, outcome_pure, outcome_err, outcome_tick, outcome_ite, outcome_forRange,
    outcome_indexArr, outcome_indexArrFixedDims, outcome_partitionPoint, Res.ok_bind]
    rfl
  | succ d ih =>
    unfold MulticubicRegularRecursive.populate Interpn.MulticubicRegularRecursive.populate
    rw [outcome_bind, outcome_forRange]
    refine congrArg₂ _ ?_ ?_
    · congr 1
      funext i ⟨vals, loc⟩
      simp only [outcome_bind, outcome_liftM, ih]
      refine bind_congr fun a => bind_congr fun b => bind_congr fun c => bind_congr fun ⟨v, l⟩ => ?_
      simp only [outcome_bind, outcome_liftM, outcome_pure]
      rfl
    · funext ⟨vals, loc⟩
      simp only [outcome_bind, outcome_liftM, outcome_pure, outcome_err, outcome_tick, outcome_ite, outcome_forRange,
    outcome_indexArr, outcome_indexArrFixedDims, outcome_partitionPoint, Res.ok_bind]
      rfl

theorem MulticubicRegularRecursive.outcome_strideLoop (s : Interpn.MulticubicRegularRecursive T M) :
    (MulticubicRegularRecursive.strideLoop s).1 = s.strideLoop := by
  unfold MulticubicRegularRecursive.strideLoop Interpn.MulticubicRegularRecursive.strideLoop
  rw [outcome_bind, outcome_forRange]
  refine congrArg₂ _ ?_ ?_
  · congr 1
    funext i ⟨acc, dimprod⟩
    simp only [outcome_bind, outcome_liftM, outcome_pure, outcome_err, outcome_tick, outcome_ite, outcome_forRange,
    outcome_indexArr, outcome_indexArrFixedDims, outcome_partitionPoint, Res.ok_bind]
    rfl
  · funext ⟨acc, dimprod⟩
    rfl

theorem MulticubicRegularRecursive.outcome_interpOne (fma : Bool) (s : Interpn.MulticubicRegularRecursive T M)
    (x : List T) : (MulticubicRegularRecursive.interpOne fma s x).1 = s.interpOne fma x := by
  unfold MulticubicRegularRecursive.interpOne Interpn.MulticubicRegularRecursive.interpOne
  simp only
  split
  · rw [outcome_bind, MulticubicRegularRecursive.outcome_strideLoop]
    refine bind_congr fun dimprod => ?_
    rw [outcome_bind, outcome_forRange]
    refine congrArg₂ _ ?_ ?_
    · congr 1
      funext i ⟨origin, sat⟩
      simp only [outcome_bind, outcome_liftM, MulticubicRegularRecursive.outcome_getLoc]
      refine bind_congr fun a => bind_congr fun ⟨o, st⟩ => ?_
      simp only [outcome_bind, outcome_liftM, outcome_pure]
      rfl
    · funext ⟨origin, sat⟩
      rw [outcome_bind, outcome_forRange]
      refine congrArg₂ _ ?_ ?_
      · congr 1
        funext i dts
        simp only [outcome_bind, outcome_liftM]
        refine bind_congr fun a => bind_congr fun b => ?_
        split <;> rename_i h <;> simp only [h, outcome_bind, outcome_liftM] <;> rfl
      · funext dts
        rw [outcome_bind, MulticubicRegularRecursive.outcome_populate]
        refine bind_congr fun ⟨_, _⟩ => rfl
  · rfl

theorem MulticubicRegularRecursive.outcome_interp (fma : Bool) (s : Interpn.MulticubicRegularRecursive T M)
    (x : List (List T)) (out : List T) :
    (MulticubicRegularRecursive.interp fma s x out).1 = s.interp fma x out := by
  unfold MulticubicRegularRecursive.interp Interpn.MulticubicRegularRecursive.interp
  simp only
  split
  · rfl
  split
  · rfl
  split
  · rfl
  · rw [outcome_batchLoop]
    congr 1
    funext i
    simp only [outcome_bind, outcome_forRange, outcome_liftM, MulticubicRegularRecursive.outcome_interpOne]

theorem MulticubicRectilinear.outcome_getLoc (s : Interpn.MulticubicRectilinear T N) (v : T) (k : Nat) :
    (MulticubicRectilinear.getLoc s v k).1 = s.getLoc v k := by
  unfold MulticubicRectilinear.getLoc Interpn.MulticubicRectilinear.getLoc
  simp only [outcome_bind, outcome_liftM, outcome_pure, outcome_err, outcome_tick, outcome_ite, outcome_forRange,
    outcome_indexArr, outcome_indexArrFixedDims, outcome_partitionPoint, Res.ok_bind]
  rfl

theorem MulticubicRectilinear.outcome_setup (s : Interpn.MulticubicRectilinear T N)
    (x : Fin N → T) : (MulticubicRectilinear.setup s x).1 = s.setup x := by
  unfold MulticubicRectilinear.setup Interpn.MulticubicRectilinear.setup
  rw [outcome_forRange]
  congr 1
  funext i ⟨acc, dimprod, origin, sat⟩
  simp only [outcome_bind, outcome_liftM, MulticubicRectilinear.outcome_getLoc]
  refine bind_congr fun a => bind_congr fun b => bind_congr fun c => bind_congr fun ⟨o, st⟩ => ?_
  simp only [outcome_bind, outcome_liftM, outcome_pure]
  rfl

theorem MulticubicRectilinear.outcome_vertexLoop (fma : Bool) (s : Interpn.MulticubicRectilinear T N)
    (x : Fin N → T) (dimprod origin : Fin N → Nat) (sat : Fin N → Saturation) :
    (MulticubicRectilinear.vertexLoop fma s x dimprod origin sat).1 =
      s.vertexLoop fma x dimprod origin sat := by
  unfold MulticubicRectilinear.vertexLoop Interpn.MulticubicRectilinear.vertexLoop
  simp only [outcome_forRange]
  congr 1
  funext i st
  congr 1
  funext j ⟨loc, store⟩
  simp only [outcome_bind, outcome_liftM, outcome_pure, outcome_err, outcome_tick, outcome_ite, outcome_forRange,
    outcome_indexArr, outcome_indexArrFixedDims, outcome_partitionPoint, Res.ok_bind]
  rfl

theorem MulticubicRectilinear.outcome_interpOne (fma : Bool) (s : Interpn.MulticubicRectilinear T N)
    (x : Fin N → T) : (MulticubicRectilinear.interpOne fma s x).1 = s.interpOne fma x := by
  unfold MulticubicRectilinear.interpOne Interpn.MulticubicRectilinear.interpOne
  rw [outcome_bind, MulticubicRectilinear.outcome_setup]
  refine bind_congr fun ⟨_, dimprod, origin, sat⟩ => ?_
  simp only [outcome_bind, MulticubicRectilinear.outcome_vertexLoop]
  refine bind_congr fun ⟨_, store⟩ => ?_
  simp only [outcome_bind, outcome_liftM, outcome_pure, outcome_err, outcome_tick, outcome_ite, outcome_forRange,
    outcome_indexArr, outcome_indexArrFixedDims, outcome_partitionPoint, Res.ok_bind]
  rfl

theorem MulticubicRectilinear.outcome_interp (fma : Bool) (s : Interpn.MulticubicRectilinear T N)
    (x : Fin N → List T) (out : List T) :
    (MulticubicRectilinear.interp fma s x out).1 = s.interp fma x out := by
  unfold MulticubicRectilinear.interp Interpn.MulticubicRectilinear.interp
  simp only
  split
  · rfl
  · rw [outcome_batchLoop]
    congr 1
    funext i
    simp only [outcome_bind, outcome_forRange, outcome_liftM, MulticubicRectilinear.outcome_interpOne]

theorem MulticubicRectilinearRecursive.outcome_getLoc (s : Interpn.MulticubicRectilinearRecursive T M) (v : T) (k : Nat) :
    (MulticubicRectilinearRecursive.getLoc s v k).1 = s.getLoc v k := by
  unfold MulticubicRectilinearRecursive.getLoc Interpn.MulticubicRectilinearRecursive.getLoc
  simp only [outcome_bind, outcome_liftM, outcome_pure, outcome_err, outcome_tick, outcome_ite, outcome_forRange,
    outcome_indexArr, outcome_indexArrFixedDims, outcome_partitionPoint, Res.ok_bind]
  rfl

theorem MulticubicRectilinearRecursive.outcome_populate (fma : Bool) (s : Interpn.MulticubicRectilinearRecursive T M)
    {n : Nat} (sat : Fin n → Saturation) (origin dimprod : Fin n → Nat) (x : Fin n → T) (d : Nat)
    (loc : Fin n → Nat) :
    (MulticubicRectilinearRecursive.populate fma s sat origin dimprod x d loc).1 =
      s.populate fma sat origin dimprod x d loc := by
  induction d generalizing loc with
  | zero =>
    unfold MulticubicRectilinearRecursive.populate Interpn.MulticubicRectilinearRecursive.populate
    simp only [outcome_bind, outcome_liftM, outcome_pure, outcome_err, outcome_tick, outcome_ite, outcome_forRange,
    outcome_indexArr, outcome_indexArrFixedDims, outcome_partitionPoint, Res.ok_bind]
    rfl
  | succ d ih =>
    unfold MulticubicRectilinearRecursive.populate Interpn.MulticubicRectilinearRecursive.populate
    rw [outcome_bind, outcome_forRange]
    refine congrArg₂ _ ?_ ?_
    · congr 1
      funext i ⟨vals, loc⟩
      simp only [outcome_bind, outcome_liftM, ih]
      refine bind_congr fun a => bind_congr fun b => bind_congr fun c => bind_congr fun ⟨v, l⟩ => ?_
      simp only [outcome_bind, outcome_liftM, outcome_pure]
      rfl
    · funext ⟨vals, loc⟩
      simp only [outcome_bind, outcome_liftM, outcome_pure, outcome_err, outcome_tick, outcome_ite, outcome_forRange,
    outcome_indexArr, outcome_indexArrFixedDims, outcome_partitionPoint, Res.ok_bind]
      rfl

theorem MulticubicRectilinearRecursive.outcome_strideLoop (s : Interpn.MulticubicRectilinearRecursive T M) :
    (MulticubicRectilinearRecursive.strideLoop s).1 = s.strideLoop := by
  unfold MulticubicRectilinearRecursive.strideLoop Interpn.MulticubicRectilinearRecursive.strideLoop
  rw [outcome_bind, outcome_forRange]
  refine congrArg₂ _ ?_ ?_
  · congr 1
    funext i ⟨acc, dimprod⟩
    simp only [outcome_bind, outcome_liftM, outcome_pure, outcome_err, outcome_tick, outcome_ite, outcome_forRange,
    outcome_indexArr, outcome_indexArrFixedDims, outcome_partitionPoint, Res.ok_bind]
    rfl
  · funext ⟨acc, dimprod⟩
    rfl

theorem MulticubicRectilinearRecursive.outcome_interpOne (fma : Bool) (s : Interpn.MulticubicRectilinearRecursive T M)
    (x : List T) : (MulticubicRectilinearRecursive.interpOne fma s x).1 = s.interpOne fma x := by
  unfold MulticubicRectilinearRecursive.interpOne Interpn.MulticubicRectilinearRecursive.interpOne
  simp only
  split
  · rw [outcome_bind, MulticubicRectilinearRecursive.outcome_strideLoop]
    refine bind_congr fun dimprod => ?_
    rw [outcome_bind, outcome_forRange]
    refine congrArg₂ _ ?_ ?_
    · congr 1
      funext i ⟨origin, sat⟩
      simp only [outcome_bind, outcome_liftM, MulticubicRectilinearRecursive.outcome_getLoc]
      refine bind_congr fun a => bind_congr fun ⟨o, st⟩ => ?_
      simp only [outcome_bind, outcome_liftM, outcome_pure]
      rfl
    · funext ⟨origin, sat⟩
      rw [outcome_bind, MulticubicRectilinearRecursive.outcome_populate]
      refine bind_congr fun ⟨_, _⟩ => rfl
  · rfl

theorem MulticubicRectilinearRecursive.outcome_interp (fma : Bool) (s : Interpn.MulticubicRectilinearRecursive T M)
    (x : List (List T)) (out : List T) :
    (MulticubicRectilinearRecursive.interp fma s x out).1 = s.interp fma x out := by
  unfold MulticubicRectilinearRecursive.interp Interpn.MulticubicRectilinearRecursive.interp
  simp only
  split
  · rfl
  split
  · rfl
  split
  · rfl
  · rw [outcome_batchLoop]
    congr 1
    funext i
    simp only [outcome_bind, outcome_forRange, outcome_liftM, MulticubicRectilinearRecursive.outcome_interpOne]

theorem NearestRegular.outcome_getLoc (s : Interpn.NearestRegular T N) (v : T) (k : Nat) :
    (NearestRegular.getLoc s v k).1 = s.getLoc v k := by
  unfold NearestRegular.getLoc Interpn.NearestRegular.getLoc
  simp only [outcome_bind, outcome_liftM]
  refine bind_congr fun a => bind_congr fun b => ?_
  split <;> rename_i h <;> simp only [h, outcome_bind, outcome_liftM, outcome_pure] <;> rfl

theorem NearestRegular.outcome_setup (fma : Bool) (s : Interpn.NearestRegular T N)
    (x : Fin N → T) : (NearestRegular.setup fma s x).1 = s.setup fma x := by
  unfold NearestRegular.setup Interpn.NearestRegular.setup
  rw [outcome_forRange]
  congr 1
  funext i ⟨acc, dimprod, loc⟩
  simp only [outcome_bind, outcome_liftM, NearestRegular.outcome_getLoc]
  refine bind_congr fun a0 => bind_congr fun a1 => bind_congr fun a2 => bind_congr fun a3 => ?_
  split <;> rename_i h <;> simp only [h, outcome_bind, outcome_liftM, outcome_pure] <;> rfl

theorem NearestRegular.outcome_interpOne (fma : Bool) (s : Interpn.NearestRegular T N)
    (x : Fin N → T) : (NearestRegular.interpOne fma s x).1 = s.interpOne fma x := by
  unfold NearestRegular.interpOne Interpn.NearestRegular.interpOne
  rw [outcome_bind, NearestRegular.outcome_setup]
  refine bind_congr fun ⟨_, dimprod, loc⟩ => ?_
  exact outcome_indexArrFixedDims _ _ _

theorem NearestRegular.outcome_interp (fma : Bool) (s : Interpn.NearestRegular T N)
    (x : Fin N → List T) (out : List T) :
    (NearestRegular.interp fma s x out).1 = s.interp fma x out := by
  unfold NearestRegular.interp Interpn.NearestRegular.interp
  simp only
  split
  · rfl
  · rw [outcome_batchLoop]
    congr 1
    funext i
    simp only [outcome_bind, outcome_forRange, outcome_liftM, NearestRegular.outcome_interpOne]

theorem NearestRectilinear.outcome_getLoc (s : Interpn.NearestRectilinear T N) (v : T) (k : Nat) :
    (NearestRectilinear.getLoc s v k).1 = s.getLoc v k := by
  unfold NearestRectilinear.getLoc Interpn.NearestRectilinear.getLoc
  simp only [outcome_bind, outcome_liftM, outcome_pure, outcome_err, outcome_tick, outcome_ite, outcome_forRange,
    outcome_indexArr, outcome_indexArrFixedDims, outcome_partitionPoint, Res.ok_bind]
  rfl

theorem NearestRectilinear.outcome_setup (s : Interpn.NearestRectilinear T N)
    (x : Fin N → T) : (NearestRectilinear.setup s x).1 = s.setup x := by
  unfold NearestRectilinear.setup Interpn.NearestRectilinear.setup
  rw [outcome_forRange]
  congr 1
  funext i ⟨acc, dimprod, loc⟩
  simp only [NearestRectilinear.outcome_getLoc, outcome_bind, outcome_liftM, outcome_pure, outcome_err, outcome_tick, outcome_ite, outcome_forRange,
    outcome_indexArr, outcome_indexArrFixedDims, outcome_partitionPoint, Res.ok_bind]
  rfl

theorem NearestRectilinear.outcome_interpOne (s : Interpn.NearestRectilinear T N)
    (x : Fin N → T) : (NearestRectilinear.interpOne s x).1 = s.interpOne x := by
  unfold NearestRectilinear.interpOne Interpn.NearestRectilinear.interpOne
  rw [outcome_bind, NearestRectilinear.outcome_setup]
  refine bind_congr fun ⟨_, dimprod, loc⟩ => ?_
  exact outcome_indexArrFixedDims _ _ _

theorem NearestRectilinear.outcome_interp (s : Interpn.NearestRectilinear T N)
    (x : Fin N → List T) (out : List T) :
    (NearestRectilinear.interp s x out).1 = s.interp x out := by
  unfold NearestRectilinear.interp Interpn.NearestRectilinear.interp
  simp only
  split
  · rfl
  · rw [outcome_batchLoop]
    congr 1
    funext i
    simp only [outcome_bind, outcome_forRange, outcome_liftM, NearestRectilinear.outcome_interpOne]

end Interpn.Counted
