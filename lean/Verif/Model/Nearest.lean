import Verif.Model.Nearest.Regular
import Verif.Model.Nearest.Rectilinear

/-! Model of `/repo/src/nearest/`: one Lean file for each Rust file. The `check_bounds` of these
modules are re-exports of those of `multilinear`. -/
