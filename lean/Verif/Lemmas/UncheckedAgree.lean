import Verif.Lemmas.Unchecked
import Verif.Spec.Api

/-! Function by function: builds without overflow checks agree with checked builds wherever
those do not panic. -/

set_option autoImplicit false

namespace Interpn
open FloatOps

variable {T : Type} [FloatOps T]

theorem Le.RegularGrid1D_new (start step : T) (vals : List T) :
    Le (Interpn.RegularGrid1D.new start step vals)
      (Unchecked.RegularGrid1D.new start step vals) := by
  unfold Interpn.RegularGrid1D.new Unchecked.RegularGrid1D.new
  repeat first | le_step

theorem Le.RegularGrid1D_index (g : RegularGrid1D T) (loc : T) :
    Le (Interpn.RegularGrid1D.index g loc)
      (Unchecked.RegularGrid1D.index g loc) := by
  unfold Interpn.RegularGrid1D.index Unchecked.RegularGrid1D.index
  repeat first | le_step

theorem Le.RegularGrid1D_at (g : RegularGrid1D T) (loc : T) :
    Le (Interpn.RegularGrid1D.«at» g loc)
      (Unchecked.RegularGrid1D.«at» g loc) := by
  unfold Interpn.RegularGrid1D.«at» Unchecked.RegularGrid1D.«at»
  repeat first | exact Le.RegularGrid1D_index .. | le_step

omit [FloatOps T] in
theorem Le.RectilinearGrid1D_new (grid vals : List T) :
    Le (Interpn.RectilinearGrid1D.new grid vals)
      (Unchecked.RectilinearGrid1D.new grid vals) := by
  unfold Interpn.RectilinearGrid1D.new Unchecked.RectilinearGrid1D.new
  repeat first | le_step

theorem Le.RectilinearGrid1D_index (g : RectilinearGrid1D T) (loc : T) :
    Le (Interpn.RectilinearGrid1D.index g loc)
      (Unchecked.RectilinearGrid1D.index g loc) := by
  unfold Interpn.RectilinearGrid1D.index Unchecked.RectilinearGrid1D.index
  repeat first | le_step

theorem Le.RectilinearGrid1D_at (g : RectilinearGrid1D T) (loc : T) :
    Le (Interpn.RectilinearGrid1D.«at» g loc)
      (Unchecked.RectilinearGrid1D.«at» g loc) := by
  unfold Interpn.RectilinearGrid1D.«at» Unchecked.RectilinearGrid1D.«at»
  repeat first | exact Le.RectilinearGrid1D_index .. | le_step

theorem Le.linspace (start stop : T) (n : Nat) :
    Le (Interpn.linspace start stop n)
      (Unchecked.linspace start stop n) := by
  unfold Interpn.linspace Unchecked.linspace
  repeat first | le_step

theorem Le.MultilinearRegularRecursive_new (M : Nat) (dims : List Nat) (starts steps : List T)
    (vals : List T) :
    Le (Interpn.MultilinearRegularRecursive.new M dims starts steps vals)
      (Unchecked.MultilinearRegularRecursive.new M dims starts steps vals) := by
  unfold Interpn.MultilinearRegularRecursive.new Unchecked.MultilinearRegularRecursive.new
  repeat first | le_step

theorem Le.MultilinearRegularRecursive_populate {M : Nat} (fma : Bool)
    (s : MultilinearRegularRecursive T M) {n : Nat} (origin dimprod : Fin n → Nat)
      (dts : Fin n → T) (k : Nat) :
    ∀ loc : Fin n → Nat, Le
      (Interpn.MultilinearRegularRecursive.populate fma s origin dimprod dts k loc)
      (Unchecked.MultilinearRegularRecursive.populate fma s origin dimprod dts k loc) := by
  induction k with
  | zero =>
    intro loc
    simp only [Interpn.MultilinearRegularRecursive.populate, Unchecked.MultilinearRegularRecursive.populate]
    repeat first | exact Le.indexArr .. | le_step
  | succ k ih =>
    intro loc
    simp only [Interpn.MultilinearRegularRecursive.populate, Unchecked.MultilinearRegularRecursive.populate]
    repeat first | exact ih _ | exact Le.indexArr .. | le_step

omit [FloatOps T] in
theorem Le.MultilinearRegularRecursive_strideLoop {M : Nat} (s : MultilinearRegularRecursive T M) :
    Le (Interpn.MultilinearRegularRecursive.strideLoop s)
      (Unchecked.MultilinearRegularRecursive.strideLoop s) := by
  unfold Interpn.MultilinearRegularRecursive.strideLoop Unchecked.MultilinearRegularRecursive.strideLoop
  repeat first | le_step

theorem Le.MultilinearRegularRecursive_interpOne {M : Nat} (fma : Bool)
    (s : MultilinearRegularRecursive T M) (x : List T) :
    Le (Interpn.MultilinearRegularRecursive.interpOne fma s x)
      (Unchecked.MultilinearRegularRecursive.interpOne fma s x) := by
  unfold Interpn.MultilinearRegularRecursive.interpOne Unchecked.MultilinearRegularRecursive.interpOne
  repeat first | exact Le.MultilinearRegularRecursive_populate .. | exact Le.MultilinearRegularRecursive_strideLoop .. | le_step

theorem LeOut.MultilinearRegularRecursive_interp {M : Nat} (fma : Bool)
    (s : MultilinearRegularRecursive T M) (x : List (List T)) (out : List T) :
    LeOut (Interpn.MultilinearRegularRecursive.interp fma s x out)
      (Unchecked.MultilinearRegularRecursive.interp fma s x out) := by
  unfold Interpn.MultilinearRegularRecursive.interp Unchecked.MultilinearRegularRecursive.interp
  repeat first | exact Le.MultilinearRegularRecursive_interpOne .. | le_step

theorem LeOut.linRegularRecBranch (fma : Bool) (M : Nat) (dims : List Nat)
    (starts steps vals : List T) (obs : List (List T)) (out : List T) :
    LeOut (Interpn.linRegularRecBranch fma M dims starts steps vals obs out)
      (Unchecked.linRegularRecBranch fma M dims starts steps vals obs out) := by
  unfold Interpn.linRegularRecBranch Unchecked.linRegularRecBranch
  repeat first | exact Le.MultilinearRegularRecursive_new .. | exact LeOut.MultilinearRegularRecursive_interp .. | le_step

theorem LeOut.multilinearRegularRecursiveInterpn (fma : Bool) (dims : List Nat)
    (starts steps vals : List T) (obs : List (List T)) (out : List T) :
    LeOut (Interpn.multilinearRegularRecursiveInterpn fma dims starts steps vals obs out)
      (Unchecked.multilinearRegularRecursiveInterpn fma dims starts steps vals obs out) := by
  unfold Interpn.multilinearRegularRecursiveInterpn Unchecked.multilinearRegularRecursiveInterpn
  repeat first | exact LeOut.linRegularRecBranch .. | le_step

theorem Le.multilinearRegularRecursiveInterpnAlloc (fma : Bool) (dims : List Nat)
    (starts steps vals : List T) (obs : List (List T)) :
    Le (Interpn.multilinearRegularRecursiveInterpnAlloc fma dims starts steps vals obs)
      (Unchecked.multilinearRegularRecursiveInterpnAlloc fma dims starts steps vals obs) := by
  unfold Interpn.multilinearRegularRecursiveInterpnAlloc Unchecked.multilinearRegularRecursiveInterpnAlloc
  repeat first | exact LeOut.multilinearRegularRecursiveInterpn .. | le_step

theorem LeOut.checkBoundsRegularRecursive (dims : List Nat) (starts steps : List T)
    (obs : List (List T)) (atol : T) (out : List Bool) :
    LeOut (Interpn.checkBoundsRegularRecursive dims starts steps obs atol out)
      (Unchecked.checkBoundsRegularRecursive dims starts steps obs atol out) := by
  unfold Interpn.checkBoundsRegularRecursive Unchecked.checkBoundsRegularRecursive
  repeat first | le_step

theorem Le.MultilinearRegular_new {N : Nat} (dims : Fin N → Nat) (starts steps : Fin N → T)
    (vals : List T) :
    Le (Interpn.MultilinearRegular.new dims starts steps vals)
      (Unchecked.MultilinearRegular.new dims starts steps vals) := by
  unfold Interpn.MultilinearRegular.new Unchecked.MultilinearRegular.new
  repeat first | le_step

theorem Le.MultilinearRegular_setup {N : Nat} (fma : Bool) (s : MultilinearRegular T N)
    (x : Fin N → T) :
    Le (Interpn.MultilinearRegular.setup fma s x)
      (Unchecked.MultilinearRegular.setup fma s x) := by
  unfold Interpn.MultilinearRegular.setup Unchecked.MultilinearRegular.setup
  repeat first | le_step

theorem Le.MultilinearRegular_vertexLoop {N : Nat} (fma : Bool) (s : MultilinearRegular T N)
    (dimprod origin : Fin N → Nat) (dts : Fin N → T) :
    Le (Interpn.MultilinearRegular.vertexLoop fma s dimprod origin dts)
      (Unchecked.MultilinearRegular.vertexLoop fma s dimprod origin dts) := by
  unfold Interpn.MultilinearRegular.vertexLoop Unchecked.MultilinearRegular.vertexLoop
  repeat first | exact Le.indexArrFixedDims .. | le_step

theorem Le.MultilinearRegular_interpOne {N : Nat} (fma : Bool) (s : MultilinearRegular T N)
    (x : Fin N → T) :
    Le (Interpn.MultilinearRegular.interpOne fma s x)
      (Unchecked.MultilinearRegular.interpOne fma s x) := by
  unfold Interpn.MultilinearRegular.interpOne Unchecked.MultilinearRegular.interpOne
  repeat first | exact Le.MultilinearRegular_setup .. | exact Le.MultilinearRegular_vertexLoop .. | le_step

theorem LeOut.MultilinearRegular_interp {N : Nat} (fma : Bool) (s : MultilinearRegular T N)
    (x : Fin N → List T) (out : List T) :
    LeOut (Interpn.MultilinearRegular.interp fma s x out)
      (Unchecked.MultilinearRegular.interp fma s x out) := by
  unfold Interpn.MultilinearRegular.interp Unchecked.MultilinearRegular.interp
  repeat first | exact Le.MultilinearRegular_interpOne .. | le_step

theorem LeOut.linRegularBranch (fma : Bool) (N : Nat) (dims : List Nat)
    (starts steps vals : List T) (obs : List (List T)) (out : List T) :
    LeOut (Interpn.linRegularBranch fma N dims starts steps vals obs out)
      (Unchecked.linRegularBranch fma N dims starts steps vals obs out) := by
  unfold Interpn.linRegularBranch Unchecked.linRegularBranch
  repeat first | exact Le.MultilinearRegular_new .. | exact LeOut.MultilinearRegular_interp .. | le_step

theorem LeOut.multilinearRegularInterpn (fma : Bool) (dims : List Nat)
    (starts steps vals : List T) (obs : List (List T)) (out : List T) :
    LeOut (Interpn.multilinearRegularInterpn fma dims starts steps vals obs out)
      (Unchecked.multilinearRegularInterpn fma dims starts steps vals obs out) := by
  unfold Interpn.multilinearRegularInterpn Unchecked.multilinearRegularInterpn
  repeat first | exact Le.MultilinearRegularRecursive_new .. | exact LeOut.MultilinearRegularRecursive_interp .. | exact LeOut.linRegularBranch .. | le_step

theorem Le.multilinearRegularInterpnAlloc (fma : Bool) (dims : List Nat)
    (starts steps vals : List T) (obs : List (List T)) :
    Le (Interpn.multilinearRegularInterpnAlloc fma dims starts steps vals obs)
      (Unchecked.multilinearRegularInterpnAlloc fma dims starts steps vals obs) := by
  unfold Interpn.multilinearRegularInterpnAlloc Unchecked.multilinearRegularInterpnAlloc
  repeat first | exact LeOut.multilinearRegularInterpn .. | le_step

theorem LeOut.checkBoundsRegular (dims : List Nat) (starts steps : List T) (obs : List (List T))
    (atol : T) (out : List Bool) :
    LeOut (Interpn.checkBoundsRegular dims starts steps obs atol out)
      (Unchecked.checkBoundsRegular dims starts steps obs atol out) := by
  unfold Interpn.checkBoundsRegular Unchecked.checkBoundsRegular
  repeat first | le_step

theorem Le.MultilinearRectilinearRecursive_new (M : Nat) (grids : List (List T)) (vals : List T) :
    Le (Interpn.MultilinearRectilinearRecursive.new M grids vals)
      (Unchecked.MultilinearRectilinearRecursive.new M grids vals) := by
  unfold Interpn.MultilinearRectilinearRecursive.new Unchecked.MultilinearRectilinearRecursive.new
  repeat first | le_step

theorem Le.MultilinearRectilinearRecursive_getLoc {M : Nat}
    (s : MultilinearRectilinearRecursive T M) (v : T) (dim : Nat) :
    Le (Interpn.MultilinearRectilinearRecursive.getLoc s v dim)
      (Unchecked.MultilinearRectilinearRecursive.getLoc s v dim) := by
  unfold Interpn.MultilinearRectilinearRecursive.getLoc Unchecked.MultilinearRectilinearRecursive.getLoc
  repeat first | le_step

theorem Le.MultilinearRectilinearRecursive_populate {M : Nat} (fma : Bool)
    (s : MultilinearRectilinearRecursive T M) {n : Nat} (origin dimprod : Fin n → Nat)
      (x : Fin n → T) (k : Nat) :
    ∀ loc : Fin n → Nat, Le
      (Interpn.MultilinearRectilinearRecursive.populate fma s origin dimprod x k loc)
      (Unchecked.MultilinearRectilinearRecursive.populate fma s origin dimprod x k loc) := by
  induction k with
  | zero =>
    intro loc
    simp only [Interpn.MultilinearRectilinearRecursive.populate, Unchecked.MultilinearRectilinearRecursive.populate]
    repeat first | exact Le.indexArr .. | le_step
  | succ k ih =>
    intro loc
    simp only [Interpn.MultilinearRectilinearRecursive.populate, Unchecked.MultilinearRectilinearRecursive.populate]
    repeat first | exact ih _ | exact Le.indexArr .. | le_step

omit [FloatOps T] in
theorem Le.MultilinearRectilinearRecursive_strideLoop {M : Nat}
    (s : MultilinearRectilinearRecursive T M) :
    Le (Interpn.MultilinearRectilinearRecursive.strideLoop s)
      (Unchecked.MultilinearRectilinearRecursive.strideLoop s) := by
  unfold Interpn.MultilinearRectilinearRecursive.strideLoop Unchecked.MultilinearRectilinearRecursive.strideLoop
  repeat first | le_step

theorem Le.MultilinearRectilinearRecursive_interpOne {M : Nat} (fma : Bool)
    (s : MultilinearRectilinearRecursive T M) (x : List T) :
    Le (Interpn.MultilinearRectilinearRecursive.interpOne fma s x)
      (Unchecked.MultilinearRectilinearRecursive.interpOne fma s x) := by
  unfold Interpn.MultilinearRectilinearRecursive.interpOne Unchecked.MultilinearRectilinearRecursive.interpOne
  repeat first | exact Le.MultilinearRectilinearRecursive_getLoc .. | exact Le.MultilinearRectilinearRecursive_populate .. | exact Le.MultilinearRectilinearRecursive_strideLoop .. | le_step

theorem LeOut.MultilinearRectilinearRecursive_interp {M : Nat} (fma : Bool)
    (s : MultilinearRectilinearRecursive T M) (x : List (List T)) (out : List T) :
    LeOut (Interpn.MultilinearRectilinearRecursive.interp fma s x out)
      (Unchecked.MultilinearRectilinearRecursive.interp fma s x out) := by
  unfold Interpn.MultilinearRectilinearRecursive.interp Unchecked.MultilinearRectilinearRecursive.interp
  repeat first | exact Le.MultilinearRectilinearRecursive_interpOne .. | le_step

theorem LeOut.linRectilinearRecBranch (fma : Bool) (M : Nat) (grids : List (List T))
    (vals : List T) (obs : List (List T)) (out : List T) :
    LeOut (Interpn.linRectilinearRecBranch fma M grids vals obs out)
      (Unchecked.linRectilinearRecBranch fma M grids vals obs out) := by
  unfold Interpn.linRectilinearRecBranch Unchecked.linRectilinearRecBranch
  repeat first | exact Le.MultilinearRectilinearRecursive_new .. | exact LeOut.MultilinearRectilinearRecursive_interp .. | le_step

theorem LeOut.multilinearRectilinearRecursiveInterpn (fma : Bool) (grids : List (List T))
    (vals : List T) (obs : List (List T)) (out : List T) :
    LeOut (Interpn.multilinearRectilinearRecursiveInterpn fma grids vals obs out)
      (Unchecked.multilinearRectilinearRecursiveInterpn fma grids vals obs out) := by
  unfold Interpn.multilinearRectilinearRecursiveInterpn Unchecked.multilinearRectilinearRecursiveInterpn
  repeat first | exact LeOut.linRectilinearRecBranch .. | le_step

theorem Le.multilinearRectilinearRecursiveInterpnAlloc (fma : Bool) (grids : List (List T))
    (vals : List T) (obs : List (List T)) :
    Le (Interpn.multilinearRectilinearRecursiveInterpnAlloc fma grids vals obs)
      (Unchecked.multilinearRectilinearRecursiveInterpnAlloc fma grids vals obs) := by
  unfold Interpn.multilinearRectilinearRecursiveInterpnAlloc Unchecked.multilinearRectilinearRecursiveInterpnAlloc
  repeat first | exact LeOut.multilinearRectilinearRecursiveInterpn .. | le_step

theorem Le.MultilinearRectilinear_new {N : Nat} (grids : Fin N → List T) (vals : List T) :
    Le (Interpn.MultilinearRectilinear.new grids vals)
      (Unchecked.MultilinearRectilinear.new grids vals) := by
  unfold Interpn.MultilinearRectilinear.new Unchecked.MultilinearRectilinear.new
  repeat first | le_step

theorem Le.MultilinearRectilinear_getLoc {N : Nat} (s : MultilinearRectilinear T N) (v : T)
    (dim : Nat) :
    Le (Interpn.MultilinearRectilinear.getLoc s v dim)
      (Unchecked.MultilinearRectilinear.getLoc s v dim) := by
  unfold Interpn.MultilinearRectilinear.getLoc Unchecked.MultilinearRectilinear.getLoc
  repeat first | le_step

theorem Le.MultilinearRectilinear_setup {N : Nat} (s : MultilinearRectilinear T N) (x : Fin N → T) :
    Le (Interpn.MultilinearRectilinear.setup s x)
      (Unchecked.MultilinearRectilinear.setup s x) := by
  unfold Interpn.MultilinearRectilinear.setup Unchecked.MultilinearRectilinear.setup
  repeat first | exact Le.MultilinearRectilinear_getLoc .. | le_step

theorem Le.MultilinearRectilinear_vertexLoop {N : Nat} (fma : Bool)
    (s : MultilinearRectilinear T N) (x : Fin N → T) (dimprod origin : Fin N → Nat) :
    Le (Interpn.MultilinearRectilinear.vertexLoop fma s x dimprod origin)
      (Unchecked.MultilinearRectilinear.vertexLoop fma s x dimprod origin) := by
  unfold Interpn.MultilinearRectilinear.vertexLoop Unchecked.MultilinearRectilinear.vertexLoop
  repeat first | exact Le.indexArrFixedDims .. | le_step

theorem Le.MultilinearRectilinear_interpOne {N : Nat} (fma : Bool)
    (s : MultilinearRectilinear T N) (x : Fin N → T) :
    Le (Interpn.MultilinearRectilinear.interpOne fma s x)
      (Unchecked.MultilinearRectilinear.interpOne fma s x) := by
  unfold Interpn.MultilinearRectilinear.interpOne Unchecked.MultilinearRectilinear.interpOne
  repeat first | exact Le.MultilinearRectilinear_setup .. | exact Le.MultilinearRectilinear_vertexLoop .. | le_step

theorem LeOut.MultilinearRectilinear_interp {N : Nat} (fma : Bool)
    (s : MultilinearRectilinear T N) (x : Fin N → List T) (out : List T) :
    LeOut (Interpn.MultilinearRectilinear.interp fma s x out)
      (Unchecked.MultilinearRectilinear.interp fma s x out) := by
  unfold Interpn.MultilinearRectilinear.interp Unchecked.MultilinearRectilinear.interp
  repeat first | exact Le.MultilinearRectilinear_interpOne .. | le_step

theorem LeOut.linRectilinearBranch (fma : Bool) (N : Nat) (grids : List (List T)) (vals : List T)
    (obs : List (List T)) (out : List T) :
    LeOut (Interpn.linRectilinearBranch fma N grids vals obs out)
      (Unchecked.linRectilinearBranch fma N grids vals obs out) := by
  unfold Interpn.linRectilinearBranch Unchecked.linRectilinearBranch
  repeat first | exact Le.MultilinearRectilinear_new .. | exact LeOut.MultilinearRectilinear_interp .. | le_step

theorem LeOut.multilinearRectilinearInterpn (fma : Bool) (grids : List (List T)) (vals : List T)
    (obs : List (List T)) (out : List T) :
    LeOut (Interpn.multilinearRectilinearInterpn fma grids vals obs out)
      (Unchecked.multilinearRectilinearInterpn fma grids vals obs out) := by
  unfold Interpn.multilinearRectilinearInterpn Unchecked.multilinearRectilinearInterpn
  repeat first | exact Le.MultilinearRectilinearRecursive_new .. | exact LeOut.MultilinearRectilinearRecursive_interp .. | exact LeOut.linRectilinearBranch .. | le_step

theorem Le.multilinearRectilinearInterpnAlloc (fma : Bool) (grids : List (List T))
    (vals : List T) (obs : List (List T)) :
    Le (Interpn.multilinearRectilinearInterpnAlloc fma grids vals obs)
      (Unchecked.multilinearRectilinearInterpnAlloc fma grids vals obs) := by
  unfold Interpn.multilinearRectilinearInterpnAlloc Unchecked.multilinearRectilinearInterpnAlloc
  repeat first | exact LeOut.multilinearRectilinearInterpn .. | le_step

theorem Le.MulticubicRegularRecursive_new (M : Nat) (dims : List Nat) (starts steps : List T)
    (vals : List T) (lin : Bool) :
    Le (Interpn.MulticubicRegularRecursive.new M dims starts steps vals lin)
      (Unchecked.MulticubicRegularRecursive.new M dims starts steps vals lin) := by
  unfold Interpn.MulticubicRegularRecursive.new Unchecked.MulticubicRegularRecursive.new
  repeat first | le_step

theorem Le.MulticubicRegularRecursive_getLoc {M : Nat} (s : MulticubicRegularRecursive T M)
    (v : T) (dim : Nat) :
    Le (Interpn.MulticubicRegularRecursive.getLoc s v dim)
      (Unchecked.MulticubicRegularRecursive.getLoc s v dim) := by
  unfold Interpn.MulticubicRegularRecursive.getLoc Unchecked.MulticubicRegularRecursive.getLoc
  repeat first | le_step

theorem Le.MulticubicRegularRecursive_populate {M : Nat} (fma : Bool)
    (s : MulticubicRegularRecursive T M) {n : Nat} (sat : Fin n → Saturation)
      (origin dimprod : Fin n → Nat) (dts : Fin n → T) (k : Nat) :
    ∀ loc : Fin n → Nat, Le
      (Interpn.MulticubicRegularRecursive.populate fma s sat origin dimprod dts k loc)
      (Unchecked.MulticubicRegularRecursive.populate fma s sat origin dimprod dts k loc) := by
  induction k with
  | zero =>
    intro loc
    simp only [Interpn.MulticubicRegularRecursive.populate, Unchecked.MulticubicRegularRecursive.populate]
    repeat first | exact Le.indexArr .. | le_step
  | succ k ih =>
    intro loc
    simp only [Interpn.MulticubicRegularRecursive.populate, Unchecked.MulticubicRegularRecursive.populate]
    repeat first | exact ih _ | exact Le.indexArr .. | le_step

omit [FloatOps T] in
theorem Le.MulticubicRegularRecursive_strideLoop {M : Nat} (s : MulticubicRegularRecursive T M) :
    Le (Interpn.MulticubicRegularRecursive.strideLoop s)
      (Unchecked.MulticubicRegularRecursive.strideLoop s) := by
  unfold Interpn.MulticubicRegularRecursive.strideLoop Unchecked.MulticubicRegularRecursive.strideLoop
  repeat first | le_step

theorem Le.MulticubicRegularRecursive_interpOne {M : Nat} (fma : Bool)
    (s : MulticubicRegularRecursive T M) (x : List T) :
    Le (Interpn.MulticubicRegularRecursive.interpOne fma s x)
      (Unchecked.MulticubicRegularRecursive.interpOne fma s x) := by
  unfold Interpn.MulticubicRegularRecursive.interpOne Unchecked.MulticubicRegularRecursive.interpOne
  repeat first | exact Le.MulticubicRegularRecursive_getLoc .. | exact Le.MulticubicRegularRecursive_populate .. | exact Le.MulticubicRegularRecursive_strideLoop .. | le_step

theorem LeOut.MulticubicRegularRecursive_interp {M : Nat} (fma : Bool)
    (s : MulticubicRegularRecursive T M) (x : List (List T)) (out : List T) :
    LeOut (Interpn.MulticubicRegularRecursive.interp fma s x out)
      (Unchecked.MulticubicRegularRecursive.interp fma s x out) := by
  unfold Interpn.MulticubicRegularRecursive.interp Unchecked.MulticubicRegularRecursive.interp
  repeat first | exact Le.MulticubicRegularRecursive_interpOne .. | le_step

theorem LeOut.cubRegularRecBranch (fma : Bool) (M : Nat) (dims : List Nat)
    (starts steps vals : List T) (lin : Bool) (obs : List (List T)) (out : List T) :
    LeOut (Interpn.cubRegularRecBranch fma M dims starts steps vals lin obs out)
      (Unchecked.cubRegularRecBranch fma M dims starts steps vals lin obs out) := by
  unfold Interpn.cubRegularRecBranch Unchecked.cubRegularRecBranch
  repeat first | exact Le.MulticubicRegularRecursive_new .. | exact LeOut.MulticubicRegularRecursive_interp .. | le_step

theorem LeOut.multicubicRegularRecursiveInterpn (fma : Bool) (dims : List Nat)
    (starts steps vals : List T) (lin : Bool) (obs : List (List T)) (out : List T) :
    LeOut (Interpn.multicubicRegularRecursiveInterpn fma dims starts steps vals lin obs out)
      (Unchecked.multicubicRegularRecursiveInterpn fma dims starts steps vals lin obs out) := by
  unfold Interpn.multicubicRegularRecursiveInterpn Unchecked.multicubicRegularRecursiveInterpn
  repeat first | exact LeOut.cubRegularRecBranch .. | le_step

theorem Le.multicubicRegularRecursiveInterpnAlloc (fma : Bool) (dims : List Nat)
    (starts steps vals : List T) (lin : Bool) (obs : List (List T)) :
    Le (Interpn.multicubicRegularRecursiveInterpnAlloc fma dims starts steps vals lin obs)
      (Unchecked.multicubicRegularRecursiveInterpnAlloc fma dims starts steps vals lin obs) := by
  unfold Interpn.multicubicRegularRecursiveInterpnAlloc Unchecked.multicubicRegularRecursiveInterpnAlloc
  repeat first | exact LeOut.multicubicRegularRecursiveInterpn .. | le_step

theorem Le.MulticubicRegular_new {N : Nat} (dims : Fin N → Nat) (starts steps : Fin N → T)
    (vals : List T) (lin : Bool) :
    Le (Interpn.MulticubicRegular.new dims starts steps vals lin)
      (Unchecked.MulticubicRegular.new dims starts steps vals lin) := by
  unfold Interpn.MulticubicRegular.new Unchecked.MulticubicRegular.new
  repeat first | le_step

theorem Le.MulticubicRegular_getLoc {N : Nat} (s : MulticubicRegular T N) (v : T) (dim : Nat) :
    Le (Interpn.MulticubicRegular.getLoc s v dim)
      (Unchecked.MulticubicRegular.getLoc s v dim) := by
  unfold Interpn.MulticubicRegular.getLoc Unchecked.MulticubicRegular.getLoc
  repeat first | le_step

theorem Le.MulticubicRegular_setup {N : Nat} (s : MulticubicRegular T N) (x : Fin N → T) :
    Le (Interpn.MulticubicRegular.setup s x)
      (Unchecked.MulticubicRegular.setup s x) := by
  unfold Interpn.MulticubicRegular.setup Unchecked.MulticubicRegular.setup
  repeat first | exact Le.MulticubicRegular_getLoc .. | le_step

theorem Le.MulticubicRegular_vertexLoop {N : Nat} (fma : Bool) (s : MulticubicRegular T N)
    (dimprod origin : Fin N → Nat) (sat : Fin N → Saturation) (dts : Fin N → T) :
    Le (Interpn.MulticubicRegular.vertexLoop fma s dimprod origin sat dts)
      (Unchecked.MulticubicRegular.vertexLoop fma s dimprod origin sat dts) := by
  unfold Interpn.MulticubicRegular.vertexLoop Unchecked.MulticubicRegular.vertexLoop
  repeat first | exact Le.indexArrFixedDims .. | le_step

theorem Le.MulticubicRegular_interpOne {N : Nat} (fma : Bool) (s : MulticubicRegular T N)
    (x : Fin N → T) :
    Le (Interpn.MulticubicRegular.interpOne fma s x)
      (Unchecked.MulticubicRegular.interpOne fma s x) := by
  unfold Interpn.MulticubicRegular.interpOne Unchecked.MulticubicRegular.interpOne
  repeat first | exact Le.MulticubicRegular_setup .. | exact Le.MulticubicRegular_vertexLoop .. | le_step

theorem LeOut.MulticubicRegular_interp {N : Nat} (fma : Bool) (s : MulticubicRegular T N)
    (x : Fin N → List T) (out : List T) :
    LeOut (Interpn.MulticubicRegular.interp fma s x out)
      (Unchecked.MulticubicRegular.interp fma s x out) := by
  unfold Interpn.MulticubicRegular.interp Unchecked.MulticubicRegular.interp
  repeat first | exact Le.MulticubicRegular_interpOne .. | le_step

theorem LeOut.cubRegularBranch (fma : Bool) (N : Nat) (dims : List Nat)
    (starts steps vals : List T) (lin : Bool) (obs : List (List T)) (out : List T) :
    LeOut (Interpn.cubRegularBranch fma N dims starts steps vals lin obs out)
      (Unchecked.cubRegularBranch fma N dims starts steps vals lin obs out) := by
  unfold Interpn.cubRegularBranch Unchecked.cubRegularBranch
  repeat first | exact Le.MulticubicRegular_new .. | exact LeOut.MulticubicRegular_interp .. | le_step

theorem LeOut.multicubicRegularInterpn (fma : Bool) (dims : List Nat)
    (starts steps vals : List T) (lin : Bool) (obs : List (List T)) (out : List T) :
    LeOut (Interpn.multicubicRegularInterpn fma dims starts steps vals lin obs out)
      (Unchecked.multicubicRegularInterpn fma dims starts steps vals lin obs out) := by
  unfold Interpn.multicubicRegularInterpn Unchecked.multicubicRegularInterpn
  repeat first | exact Le.MulticubicRegularRecursive_new .. | exact LeOut.MulticubicRegularRecursive_interp .. | exact LeOut.cubRegularBranch .. | le_step

theorem Le.multicubicRegularInterpnAlloc (fma : Bool) (dims : List Nat)
    (starts steps vals : List T) (lin : Bool) (obs : List (List T)) :
    Le (Interpn.multicubicRegularInterpnAlloc fma dims starts steps vals lin obs)
      (Unchecked.multicubicRegularInterpnAlloc fma dims starts steps vals lin obs) := by
  unfold Interpn.multicubicRegularInterpnAlloc Unchecked.multicubicRegularInterpnAlloc
  repeat first | exact LeOut.multicubicRegularInterpn .. | le_step

theorem Le.MulticubicRectilinearRecursive_new (M : Nat) (grids : List (List T)) (vals : List T)
    (lin : Bool) :
    Le (Interpn.MulticubicRectilinearRecursive.new M grids vals lin)
      (Unchecked.MulticubicRectilinearRecursive.new M grids vals lin) := by
  unfold Interpn.MulticubicRectilinearRecursive.new Unchecked.MulticubicRectilinearRecursive.new
  repeat first | le_step

theorem Le.MulticubicRectilinearRecursive_getLoc {M : Nat}
    (s : MulticubicRectilinearRecursive T M) (v : T) (dim : Nat) :
    Le (Interpn.MulticubicRectilinearRecursive.getLoc s v dim)
      (Unchecked.MulticubicRectilinearRecursive.getLoc s v dim) := by
  unfold Interpn.MulticubicRectilinearRecursive.getLoc Unchecked.MulticubicRectilinearRecursive.getLoc
  repeat first | le_step

theorem Le.MulticubicRectilinearRecursive_populate {M : Nat} (fma : Bool)
    (s : MulticubicRectilinearRecursive T M) {n : Nat} (sat : Fin n → Saturation)
      (origin dimprod : Fin n → Nat) (x : Fin n → T) (k : Nat) :
    ∀ loc : Fin n → Nat, Le
      (Interpn.MulticubicRectilinearRecursive.populate fma s sat origin dimprod x k loc)
      (Unchecked.MulticubicRectilinearRecursive.populate fma s sat origin dimprod x k loc) := by
  induction k with
  | zero =>
    intro loc
    simp only [Interpn.MulticubicRectilinearRecursive.populate, Unchecked.MulticubicRectilinearRecursive.populate]
    repeat first | exact Le.indexArr .. | exact Le.gridCell .. | le_step
  | succ k ih =>
    intro loc
    simp only [Interpn.MulticubicRectilinearRecursive.populate, Unchecked.MulticubicRectilinearRecursive.populate]
    repeat first | exact ih _ | exact Le.indexArr .. | exact Le.gridCell .. | le_step

omit [FloatOps T] in
theorem Le.MulticubicRectilinearRecursive_strideLoop {M : Nat}
    (s : MulticubicRectilinearRecursive T M) :
    Le (Interpn.MulticubicRectilinearRecursive.strideLoop s)
      (Unchecked.MulticubicRectilinearRecursive.strideLoop s) := by
  unfold Interpn.MulticubicRectilinearRecursive.strideLoop Unchecked.MulticubicRectilinearRecursive.strideLoop
  repeat first | le_step

theorem Le.MulticubicRectilinearRecursive_interpOne {M : Nat} (fma : Bool)
    (s : MulticubicRectilinearRecursive T M) (x : List T) :
    Le (Interpn.MulticubicRectilinearRecursive.interpOne fma s x)
      (Unchecked.MulticubicRectilinearRecursive.interpOne fma s x) := by
  unfold Interpn.MulticubicRectilinearRecursive.interpOne Unchecked.MulticubicRectilinearRecursive.interpOne
  repeat first | exact Le.MulticubicRectilinearRecursive_getLoc .. | exact Le.MulticubicRectilinearRecursive_populate .. | exact Le.MulticubicRectilinearRecursive_strideLoop .. | le_step

theorem LeOut.MulticubicRectilinearRecursive_interp {M : Nat} (fma : Bool)
    (s : MulticubicRectilinearRecursive T M) (x : List (List T)) (out : List T) :
    LeOut (Interpn.MulticubicRectilinearRecursive.interp fma s x out)
      (Unchecked.MulticubicRectilinearRecursive.interp fma s x out) := by
  unfold Interpn.MulticubicRectilinearRecursive.interp Unchecked.MulticubicRectilinearRecursive.interp
  repeat first | exact Le.MulticubicRectilinearRecursive_interpOne .. | le_step

theorem LeOut.cubRectilinearRecBranch (fma : Bool) (M : Nat) (grids : List (List T))
    (vals : List T) (lin : Bool) (obs : List (List T)) (out : List T) :
    LeOut (Interpn.cubRectilinearRecBranch fma M grids vals lin obs out)
      (Unchecked.cubRectilinearRecBranch fma M grids vals lin obs out) := by
  unfold Interpn.cubRectilinearRecBranch Unchecked.cubRectilinearRecBranch
  repeat first | exact Le.MulticubicRectilinearRecursive_new .. | exact LeOut.MulticubicRectilinearRecursive_interp .. | le_step

theorem LeOut.multicubicRectilinearRecursiveInterpn (fma : Bool) (grids : List (List T))
    (vals : List T) (lin : Bool) (obs : List (List T)) (out : List T) :
    LeOut (Interpn.multicubicRectilinearRecursiveInterpn fma grids vals lin obs out)
      (Unchecked.multicubicRectilinearRecursiveInterpn fma grids vals lin obs out) := by
  unfold Interpn.multicubicRectilinearRecursiveInterpn Unchecked.multicubicRectilinearRecursiveInterpn
  repeat first | exact LeOut.cubRectilinearRecBranch .. | le_step

theorem Le.multicubicRectilinearRecursiveInterpnAlloc (fma : Bool) (grids : List (List T))
    (vals : List T) (lin : Bool) (obs : List (List T)) :
    Le (Interpn.multicubicRectilinearRecursiveInterpnAlloc fma grids vals lin obs)
      (Unchecked.multicubicRectilinearRecursiveInterpnAlloc fma grids vals lin obs) := by
  unfold Interpn.multicubicRectilinearRecursiveInterpnAlloc Unchecked.multicubicRectilinearRecursiveInterpnAlloc
  repeat first | exact LeOut.multicubicRectilinearRecursiveInterpn .. | le_step

theorem Le.MulticubicRectilinear_new {N : Nat} (grids : Fin N → List T) (vals : List T)
    (lin : Bool) :
    Le (Interpn.MulticubicRectilinear.new grids vals lin)
      (Unchecked.MulticubicRectilinear.new grids vals lin) := by
  unfold Interpn.MulticubicRectilinear.new Unchecked.MulticubicRectilinear.new
  repeat first | le_step

theorem Le.MulticubicRectilinear_getLoc {N : Nat} (s : MulticubicRectilinear T N) (v : T)
    (dim : Nat) :
    Le (Interpn.MulticubicRectilinear.getLoc s v dim)
      (Unchecked.MulticubicRectilinear.getLoc s v dim) := by
  unfold Interpn.MulticubicRectilinear.getLoc Unchecked.MulticubicRectilinear.getLoc
  repeat first | le_step

theorem Le.MulticubicRectilinear_setup {N : Nat} (s : MulticubicRectilinear T N) (x : Fin N → T) :
    Le (Interpn.MulticubicRectilinear.setup s x)
      (Unchecked.MulticubicRectilinear.setup s x) := by
  unfold Interpn.MulticubicRectilinear.setup Unchecked.MulticubicRectilinear.setup
  repeat first | exact Le.MulticubicRectilinear_getLoc .. | le_step

theorem Le.MulticubicRectilinear_vertexLoop {N : Nat} (fma : Bool)
    (s : MulticubicRectilinear T N) (x : Fin N → T) (dimprod origin : Fin N → Nat)
      (sat : Fin N → Saturation) :
    Le (Interpn.MulticubicRectilinear.vertexLoop fma s x dimprod origin sat)
      (Unchecked.MulticubicRectilinear.vertexLoop fma s x dimprod origin sat) := by
  unfold Interpn.MulticubicRectilinear.vertexLoop Unchecked.MulticubicRectilinear.vertexLoop
  repeat first | exact Le.indexArrFixedDims .. | exact Le.gridCell .. | le_step

theorem Le.MulticubicRectilinear_interpOne {N : Nat} (fma : Bool) (s : MulticubicRectilinear T N)
    (x : Fin N → T) :
    Le (Interpn.MulticubicRectilinear.interpOne fma s x)
      (Unchecked.MulticubicRectilinear.interpOne fma s x) := by
  unfold Interpn.MulticubicRectilinear.interpOne Unchecked.MulticubicRectilinear.interpOne
  repeat first | exact Le.gridCell .. | exact Le.MulticubicRectilinear_setup .. | exact Le.MulticubicRectilinear_vertexLoop .. | le_step

theorem LeOut.MulticubicRectilinear_interp {N : Nat} (fma : Bool) (s : MulticubicRectilinear T N)
    (x : Fin N → List T) (out : List T) :
    LeOut (Interpn.MulticubicRectilinear.interp fma s x out)
      (Unchecked.MulticubicRectilinear.interp fma s x out) := by
  unfold Interpn.MulticubicRectilinear.interp Unchecked.MulticubicRectilinear.interp
  repeat first | exact Le.MulticubicRectilinear_interpOne .. | le_step

theorem LeOut.cubRectilinearBranch (fma : Bool) (N : Nat) (grids : List (List T)) (vals : List T)
    (lin : Bool) (obs : List (List T)) (out : List T) :
    LeOut (Interpn.cubRectilinearBranch fma N grids vals lin obs out)
      (Unchecked.cubRectilinearBranch fma N grids vals lin obs out) := by
  unfold Interpn.cubRectilinearBranch Unchecked.cubRectilinearBranch
  repeat first | exact Le.MulticubicRectilinear_new .. | exact LeOut.MulticubicRectilinear_interp .. | le_step

theorem LeOut.multicubicRectilinearInterpn (fma : Bool) (grids : List (List T)) (vals : List T)
    (lin : Bool) (obs : List (List T)) (out : List T) :
    LeOut (Interpn.multicubicRectilinearInterpn fma grids vals lin obs out)
      (Unchecked.multicubicRectilinearInterpn fma grids vals lin obs out) := by
  unfold Interpn.multicubicRectilinearInterpn Unchecked.multicubicRectilinearInterpn
  repeat first | exact Le.MulticubicRectilinearRecursive_new .. | exact LeOut.MulticubicRectilinearRecursive_interp .. | exact LeOut.cubRectilinearBranch .. | le_step

theorem Le.multicubicRectilinearInterpnAlloc (fma : Bool) (grids : List (List T)) (vals : List T)
    (lin : Bool) (obs : List (List T)) :
    Le (Interpn.multicubicRectilinearInterpnAlloc fma grids vals lin obs)
      (Unchecked.multicubicRectilinearInterpnAlloc fma grids vals lin obs) := by
  unfold Interpn.multicubicRectilinearInterpnAlloc Unchecked.multicubicRectilinearInterpnAlloc
  repeat first | exact LeOut.multicubicRectilinearInterpn .. | le_step

theorem Le.NearestRegular_new {N : Nat} (dims : Fin N → Nat) (starts steps : Fin N → T)
    (vals : List T) :
    Le (Interpn.NearestRegular.new dims starts steps vals)
      (Unchecked.NearestRegular.new dims starts steps vals) := by
  unfold Interpn.NearestRegular.new Unchecked.NearestRegular.new
  repeat first | le_step

theorem Le.NearestRegular_setup {N : Nat} (fma : Bool) (s : NearestRegular T N) (x : Fin N → T) :
    Le (Interpn.NearestRegular.setup fma s x)
      (Unchecked.NearestRegular.setup fma s x) := by
  unfold Interpn.NearestRegular.setup Unchecked.NearestRegular.setup
  repeat first | le_step

theorem Le.NearestRegular_interpOne {N : Nat} (fma : Bool) (s : NearestRegular T N) (x : Fin N →
    T) :
    Le (Interpn.NearestRegular.interpOne fma s x)
      (Unchecked.NearestRegular.interpOne fma s x) := by
  unfold Interpn.NearestRegular.interpOne Unchecked.NearestRegular.interpOne
  repeat first | exact Le.indexArrFixedDims .. | exact Le.NearestRegular_setup .. | le_step

theorem LeOut.NearestRegular_interp {N : Nat} (fma : Bool) (s : NearestRegular T N) (x : Fin N →
    List T) (out : List T) :
    LeOut (Interpn.NearestRegular.interp fma s x out)
      (Unchecked.NearestRegular.interp fma s x out) := by
  unfold Interpn.NearestRegular.interp Unchecked.NearestRegular.interp
  repeat first | exact Le.NearestRegular_interpOne .. | le_step

theorem LeOut.nearestRegularBranch (fma : Bool) (N : Nat) (dims : List Nat)
    (starts steps vals : List T) (obs : List (List T)) (out : List T) :
    LeOut (Interpn.nearestRegularBranch fma N dims starts steps vals obs out)
      (Unchecked.nearestRegularBranch fma N dims starts steps vals obs out) := by
  unfold Interpn.nearestRegularBranch Unchecked.nearestRegularBranch
  repeat first | exact Le.NearestRegular_new .. | exact LeOut.NearestRegular_interp .. | le_step

theorem LeOut.nearestRegularInterpn (fma : Bool) (dims : List Nat) (starts steps vals : List T)
    (obs : List (List T)) (out : List T) :
    LeOut (Interpn.nearestRegularInterpn fma dims starts steps vals obs out)
      (Unchecked.nearestRegularInterpn fma dims starts steps vals obs out) := by
  unfold Interpn.nearestRegularInterpn Unchecked.nearestRegularInterpn
  repeat first | exact LeOut.nearestRegularBranch .. | le_step

theorem Le.nearestRegularInterpnAlloc (fma : Bool) (dims : List Nat) (starts steps vals : List T)
    (obs : List (List T)) :
    Le (Interpn.nearestRegularInterpnAlloc fma dims starts steps vals obs)
      (Unchecked.nearestRegularInterpnAlloc fma dims starts steps vals obs) := by
  unfold Interpn.nearestRegularInterpnAlloc Unchecked.nearestRegularInterpnAlloc
  repeat first | exact LeOut.nearestRegularInterpn .. | le_step

theorem Le.NearestRectilinear_new {N : Nat} (grids : Fin N → List T) (vals : List T) :
    Le (Interpn.NearestRectilinear.new grids vals)
      (Unchecked.NearestRectilinear.new grids vals) := by
  unfold Interpn.NearestRectilinear.new Unchecked.NearestRectilinear.new
  repeat first | le_step

theorem Le.NearestRectilinear_getLoc {N : Nat} (s : NearestRectilinear T N) (v : T) (dim : Nat) :
    Le (Interpn.NearestRectilinear.getLoc s v dim)
      (Unchecked.NearestRectilinear.getLoc s v dim) := by
  unfold Interpn.NearestRectilinear.getLoc Unchecked.NearestRectilinear.getLoc
  repeat first | le_step

theorem Le.NearestRectilinear_setup {N : Nat} (s : NearestRectilinear T N) (x : Fin N → T) :
    Le (Interpn.NearestRectilinear.setup s x)
      (Unchecked.NearestRectilinear.setup s x) := by
  unfold Interpn.NearestRectilinear.setup Unchecked.NearestRectilinear.setup
  repeat first | exact Le.NearestRectilinear_getLoc .. | le_step

theorem Le.NearestRectilinear_interpOne {N : Nat} (s : NearestRectilinear T N) (x : Fin N → T) :
    Le (Interpn.NearestRectilinear.interpOne s x)
      (Unchecked.NearestRectilinear.interpOne s x) := by
  unfold Interpn.NearestRectilinear.interpOne Unchecked.NearestRectilinear.interpOne
  repeat first | exact Le.indexArrFixedDims .. | exact Le.NearestRectilinear_setup .. | le_step

theorem LeOut.NearestRectilinear_interp {N : Nat} (s : NearestRectilinear T N) (x : Fin N →
    List T) (out : List T) :
    LeOut (Interpn.NearestRectilinear.interp s x out)
      (Unchecked.NearestRectilinear.interp s x out) := by
  unfold Interpn.NearestRectilinear.interp Unchecked.NearestRectilinear.interp
  repeat first | exact Le.NearestRectilinear_interpOne .. | le_step

theorem LeOut.nearestRectilinearBranch (N : Nat) (grids : List (List T)) (vals : List T)
    (obs : List (List T)) (out : List T) :
    LeOut (Interpn.nearestRectilinearBranch N grids vals obs out)
      (Unchecked.nearestRectilinearBranch N grids vals obs out) := by
  unfold Interpn.nearestRectilinearBranch Unchecked.nearestRectilinearBranch
  repeat first | exact Le.NearestRectilinear_new .. | exact LeOut.NearestRectilinear_interp .. | le_step

theorem LeOut.nearestRectilinearInterpn (grids : List (List T)) (vals : List T)
    (obs : List (List T)) (out : List T) :
    LeOut (Interpn.nearestRectilinearInterpn grids vals obs out)
      (Unchecked.nearestRectilinearInterpn grids vals obs out) := by
  unfold Interpn.nearestRectilinearInterpn Unchecked.nearestRectilinearInterpn
  repeat first | exact LeOut.nearestRectilinearBranch .. | le_step

theorem Le.nearestRectilinearInterpnAlloc (grids : List (List T)) (vals : List T)
    (obs : List (List T)) :
    Le (Interpn.nearestRectilinearInterpnAlloc grids vals obs)
      (Unchecked.nearestRectilinearInterpnAlloc grids vals obs) := by
  unfold Interpn.nearestRectilinearInterpnAlloc Unchecked.nearestRectilinearInterpnAlloc
  repeat first | exact LeOut.nearestRectilinearInterpn .. | le_step

theorem Le.evalOne (fma : Bool) (kind : Kind1D) {gridAt gridAt' : T → Res (GridSample T)}
    (h : ∀ x, Le (gridAt x) (gridAt' x)) (x : T) :
    Le (kind.evalOne fma gridAt x) (kind.evalOne fma gridAt' x) := by
  cases kind
  all_goals exact (h x).bind fun a => .refl _

omit [FloatOps T] in
theorem LeOut.eval1D {f f' : T → Res T} (h : ∀ x, Le (f x) (f' x)) (locs out : List T) :
    LeOut (eval1D f locs out) (eval1D f' locs out) := by
  unfold Interpn.eval1D
  repeat first | exact h _ | le_step

theorem Le.evalAlloc1D {f f' : T → Res T} (h : ∀ x, Le (f x) (f' x)) (locs : List T) :
    Le (evalAlloc1D f locs) (evalAlloc1D f' locs) := by
  unfold Interpn.evalAlloc1D
  rcases LeOut.eval1D h locs (List.replicate locs.length zero) with hp | hp
  · simp only [hp]; exact .inl rfl
  · simp only [hp]; exact .refl _

end Interpn
