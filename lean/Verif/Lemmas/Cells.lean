import Verif.Lemmas.Forms
import Verif.Lemmas.Forms
import Verif.Lemmas.Basic
import Verif.Lemmas.Search
import Verif.Spec.Slices
import Mathlib.Data.List.GetD

/-! Closed forms of the cell selection functions. -/

set_option autoImplicit false

namespace Interpn
open FloatOps

variable {T : Type} [FloatOps T]

/-- The error of an unrepresentable coordinate. -/
def errRepr : String := "Unrepresentable coordinate value"

/-- `z` clamped to `0..m`. -/
def clampIdx (z : Int) (m : Nat) : Nat := (min (max z 0) (m : Int)).toNat

theorem clampIdx_le (z : Int) (m : Nat) : clampIdx z m ≤ m := by unfold clampIdx; omega

/-- Cell number (before clamping) on a regular axis. -/
def rawCell (start step x : T) : Option Int := toIsize (floor ((x -. start) /. step))

theorem rawCell_range {start step x : T} {z : Int} (h : rawCell start step x = some z) :
    isizeMin ≤ z ∧ z ≤ isizeMax := toIsize_range _ _ h

theorem asIsize_eq {n : Nat} (h : (n : Int) ≤ isizeMax) : asIsize n = n := by
  simp [asIsize, h]

theorem asUsize_clamp (z : Int) (m : Nat) :
    asUsize (min (max z 0) (m : Int)) = clampIdx z m := by
  unfold asUsize clampIdx
  rw [if_pos (by omega)]

theorem dimmax_eq {n m : Nat} (hm : m ≤ n) (h : (n : Int) ≤ isizeMax) :
    max (isatSub (n : Int) (m : Int)) 0 = ((n - m : Nat) : Int) := by
  unfold isatSub
  simp only [isizeMin, isizeMax] at *
  omega

theorem linGetLocRegular_eq {dim : Nat} (h2 : 2 ≤ dim) (hd : (dim : Int) ≤ isizeMax)
    (start step x : T) :
    linGetLocRegular dim start step x =
      match rawCell start step x with
      | none => .err errRepr
      | some z => .ok (clampIdx z (dim - 2)) := by
  unfold linGetLocRegular rawCell
  have h3 := dimmax_eq (m := 2) h2 hd
  simp only [Nat.cast_ofNat] at h3
  simp only [asIsize_eq hd, h3, asUsize_clamp]
  split
  · next h => rw [h]; rfl
  · next z h => rw [h]

omit [FloatOps T] in
theorem partitionPoint_isize {grid : List T} (hg : IsSlice grid) (p : T → Bool) :
    asIsize (partitionPoint grid p) = partitionPoint grid p := by
  apply asIsize_eq
  have := partitionPoint_le grid p
  rw [isSlice_iff] at hg
  omega

/-- Number of grid entries found to be below `x`. -/
def cellsBelow (grid : List T) (x : T) : Nat := partitionPoint grid (fun y => y <. x)

theorem cellsBelow_le (grid : List T) (x : T) : cellsBelow grid x ≤ grid.length :=
  partitionPoint_le _ _

/-- Law-free core: if "below `v`" is downward closed along the grid, `cellsBelow` counts the
entries below `v`. -/
theorem cellsBelow_iff {grid : List T} {v : T}
    (hsort : ∀ (i j : Nat) (hij : i ≤ j) (hj : j < grid.length),
      (grid[j] <. v) = true → (grid[i] <. v) = true)
    (i : Nat) (hi : i < grid.length) : (grid[i] <. v) = true ↔ i < cellsBelow grid v := by
  classical
  -- the number of entries below `v`
  have hex : ∃ k, k ≤ grid.length ∧
      ∀ i (h : i < grid.length), (grid[i] <. v) = true ↔ i < k := by
    by_cases hall : ∀ i (h : i < grid.length), (grid[i] <. v) = true
    · exact ⟨grid.length, le_rfl, fun i h => ⟨fun _ => h, fun _ => hall i h⟩⟩
    · push Not at hall
      have hP : ∃ i, ∃ h : i < grid.length, ¬ (grid[i] <. v) = true := hall
      refine ⟨Nat.find hP, ?_, fun i h => ⟨fun hb => ?_, fun hlt => ?_⟩⟩
      · obtain ⟨h, _⟩ := Nat.find_spec hP; omega
      · by_contra hge
        obtain ⟨h', hn⟩ := Nat.find_spec hP
        exact hn (hsort _ i (by omega) h hb)
      · by_contra hb
        have := Nat.find_min' hP ⟨h, hb⟩
        omega
  obtain ⟨k, hk, hiff⟩ := hex
  have : cellsBelow grid v = k := partitionPoint_eq _ _ k hk hiff
  rw [this]; exact hiff i hi

theorem linGetLocRectilinear_eq {dim : Nat} (h2 : 2 ≤ dim) (hd : (dim : Int) ≤ isizeMax)
    {grid : List T} (hg : IsSlice grid) (x : T) :
    linGetLocRectilinear dim grid x =
      .ok (min (cellsBelow grid x - 1) (dim - 2)) := by
  unfold linGetLocRectilinear
  have h1 := cellsBelow_le grid x
  have h3 := dimmax_eq (m := 2) h2 hd
  simp only [Nat.cast_ofNat] at h3
  rw [partitionPoint_isize hg, isub_ok]
  · simp only [Res.ok_bind, asIsize_eq hd, h3, asUsize_clamp, Res.pure_eq]
    congr 1
    unfold clampIdx cellsBelow
    omega
  · simp only [isizeMin]; omega
  · rw [isSlice_iff] at hg; unfold cellsBelow at h1; omega

/-- Saturation flag on a regular axis, from the cell number `z`. -/
def satRegular (dim : Nat) (z : Int) : Saturation :=
  if z < 0 then .outsideLow else if z = 0 then .insideLow
  else if (dim : Int) - 2 < z then .outsideHigh
  else if z = (dim : Int) - 2 then .insideHigh else .none

theorem cubGetLocRegular_eq {dim : Nat} (h4 : 4 ≤ dim) (hd : (dim : Int) ≤ isizeMax)
    (start step x : T) :
    cubGetLocRegular dim start step x =
      match rawCell start step x with
      | none => .err errRepr
      | some z => if z = isizeMin then .panic
          else .ok (clampIdx (z - 1) (dim - 4), satRegular dim z) := by
  unfold cubGetLocRegular
  have h3 := dimmax_eq (m := 4) h4 hd
  simp only [Nat.cast_ofNat] at h3
  simp only [asIsize_eq hd, h3, asUsize_clamp]
  have hr := @rawCell_range T _ start step x
  unfold rawCell at *
  split
  · next h => simp [h, errRepr]
  · next z h =>
    obtain ⟨hl, hu⟩ := hr h
    simp only [h]
    by_cases hz : z = isizeMin
    · subst hz; rw [if_pos rfl]; rfl
    · rw [if_neg hz, isub_ok (by simp only [isizeMin] at *; omega) (by omega), Res.ok_bind]
      rw [isub_ok (by simp only [isizeMin] at *; omega) (by omega)]
      simp only [Res.ok_bind, Res.pure_eq]
      unfold satRegular
      split_ifs <;> first | rfl | omega

/-- Saturation flag on a rectilinear axis, from the number `b` of nodes below `x`. -/
def satRectilinear (dim b : Nat) : Saturation :=
  if b = 0 then .outsideLow else if b = 1 then .insideLow
  else if b = dim then .outsideHigh
  else if b + 1 = dim then .insideHigh else .none

theorem cubGetLocRectilinear_eq {dim : Nat} (h4 : 4 ≤ dim) (hd : (dim : Int) ≤ isizeMax)
    {grid : List T} (hg : IsSlice grid) (x : T) :
    cubGetLocRectilinear dim grid x =
      .ok (min (cellsBelow grid x - 2) (dim - 4), satRectilinear dim (cellsBelow grid x)) := by
  unfold cubGetLocRectilinear
  have h1 := cellsBelow_le grid x
  have h3 := dimmax_eq (m := 4) h4 hd
  simp only [Nat.cast_ofNat] at h3
  have hg' := (isSlice_iff _).1 hg
  rw [partitionPoint_isize hg, isub_ok (by simp only [isizeMin]; omega)
    (by unfold cellsBelow at h1; omega)]
  simp only [Res.ok_bind, asIsize_eq hd, h3, asUsize_clamp, Res.pure_eq]
  rw [isub_ok (a := dim) (b := 2) (by simp only [isizeMin] at *; omega) (by omega),
    isub_ok (a := dim) (b := 3) (by simp only [isizeMin] at *; omega) (by omega)]
  simp only [Res.ok_bind]
  have e : clampIdx ((partitionPoint grid fun y => y <. x : Nat) - 2) (dim - 4) =
      min (cellsBelow grid x - 2) (dim - 4) := by
    unfold clampIdx cellsBelow; omega
  rw [e]
  unfold satRectilinear
  change _ = _
  have e2 : partitionPoint grid (fun y => y <. x) = cellsBelow grid x := rfl
  rw [e2]
  split_ifs <;> first | rfl | omega

theorem gridCell_eq {grid : List T} {o : Nat} (hg : IsSlice grid) (h : o + 4 ≤ grid.length) :
    gridCell grid o = .ok (fun p => grid.getD (o + p.val) zero) := by
  unfold gridCell
  have : o + 4 ≤ usizeMax := by
    rw [isSlice_iff] at hg; simp only [isizeMax, usizeMax] at *; omega
  rw [uadd_ok this, Res.ok_bind, dif_pos ⟨h, rfl⟩]
  congr 1; funext p
  have := p.isLt
  rw [List.getD_eq_getElem _ _ (by omega)]

/-- Relative position of `x` in cell `o` of the nodes `p`. -/
def cellPos (p : Nat → T) (o : Nat) (x : T) : T := (x -. p o) /. (p (o + 1) -. p o)

theorem lerpRectilinear_eq (fma : Bool) {grid : List T} {o : Nat} (hg : IsSlice grid)
    (h : o + 2 ≤ grid.length) (x : T) (v : Fin 2 → T) :
    lerpRectilinear fma grid o x v =
      .ok (lerp fma (cellPos (fun i => grid.getD i zero) o x) v) := by
  unfold lerpRectilinear
  have : o + 1 ≤ usizeMax := by
    rw [isSlice_iff] at hg; simp only [isizeMax, usizeMax] at *; omega
  rw [lget_lt _ (by omega), Res.ok_bind, uadd_ok this, Res.ok_bind, lget_lt _ (by omega),
    Res.ok_bind, Res.pure_eq]
  unfold cellPos
  simp only
  rw [List.getD_eq_getElem _ _ (by omega), List.getD_eq_getElem _ _ (by omega)]

theorem nearestOffset_le (dt : T) : nearestOffset dt ≤ 1 := by
  unfold nearestOffset; split <;> omega

end Interpn
