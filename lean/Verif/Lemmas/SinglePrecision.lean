import Verif.Spec.IeeeNumpy
import Verif.Lemmas.Ieee
import Verif.Lemmas.BinaryFormat
import Verif.Spec.Grid
import Mathlib.Data.List.GetD

/-! Rounding `f64` data to `f32`. -/

set_option autoImplicit false
set_option exponentiation.threshold 1100

namespace Interpn
open Ieee

theorem single_val {a : F64} (ha : Finite a) (h : |val a| ≤ 2 ^ 127) :
    Finite (single a) ∧ val (single a) = Format.binary32.roundQ (val a) := by
  obtain ⟨s, q, hr, hs, rfl⟩ := ha.cases
  refine rnd_of_le s (h.trans ?_)
  norm_num [Format.omega, Format.binary32]

theorem single_err {a : F64} (ha : Finite a) (h : |val a| ≤ 2 ^ 127) :
    |val (single a) - val a| ≤ 1 / 2 ^ 24 * |val a| + 1 / 2 ^ 150 := by
  rw [(single_val ha h).2]
  refine (Format.binary32.roundQ_err (val a)).trans_eq ?_
  rw [show Format.binary32.unitRoundoff = 1 / 2 ^ 24 from rfl,
    show Format.binary32.underflow = 1 / 2 ^ 150 by
      norm_num [Format.underflow, Format.binary32, Format.emin, zpow_neg]]

theorem single_mono {a b : F64} (ha : Finite a) (hb : Finite b) (h : |val a| ≤ 2 ^ 127)
    (h' : |val b| ≤ 2 ^ 127) (hab : val a ≤ val b) : val (single a) ≤ val (single b) := by
  rw [(single_val ha h).2, (single_val hb h').2]
  exact Format.binary32.roundQ_mono hab

/-- Data at most `κ w` in size, where `w` is a normal number of `f32`, move by at most
`(1 + κ) 2^-24 w`. -/
theorem single_moves {a : F64} {κ w : ℚ} (ha : Finite a) (h : |val a| ≤ κ * w)
    (hκ : κ * w ≤ 2 ^ 127) (hw : 1 / 2 ^ 126 ≤ w) :
    |val (single a) - val a| ≤ (1 + κ) * (1 / 2 ^ 24) * w := by
  refine (single_err ha (h.trans hκ)).trans ?_
  have h1 : (1 : ℚ) / 2 ^ 150 ≤ 1 / 2 ^ 24 * w := by
    calc (1 : ℚ) / 2 ^ 150 = 1 / 2 ^ 24 * (1 / 2 ^ 126) := by norm_num
      _ ≤ _ := by gcongr
  have h2 : (1 : ℚ) / 2 ^ 24 * |val a| ≤ 1 / 2 ^ 24 * (κ * w) := by gcongr
  linarith

/-- Entry of a converted list. -/
theorem getD_map_single (l : List F64) {i : Nat} (hi : i < l.length) :
    ((l.map single).map val).getD i 0 = val (single l[i]) ∧ (l.map val).getD i 0 = val l[i] := by
  rw [List.getD_eq_getElem _ _ (by simpa using hi), List.getD_eq_getElem _ _ (by simpa using hi)]
  simp

end Interpn
