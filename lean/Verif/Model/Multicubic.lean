import Verif.Model.Multicubic.Regular
import Verif.Model.Multicubic.Rectilinear

/-! Model of `/repo/src/multicubic/`: one Lean file for each Rust file. The `check_bounds` of these
modules are re-exports of those of `multilinear`. -/
