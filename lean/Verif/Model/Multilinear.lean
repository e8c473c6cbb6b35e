import Verif.Model.Multilinear.Regular
import Verif.Model.Multilinear.Rectilinear

/-! Model of `/repo/src/multilinear/`: one Lean file for each Rust file. -/
