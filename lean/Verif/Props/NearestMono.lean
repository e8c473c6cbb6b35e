import Verif.Lemmas.NearestMono
import Verif.Props.Crop
import Verif.Props.IeeeOneDim

/-! C128: the staircase interpolators in floating point of any IEEE binary format. When the
observation grows, the chosen node never moves back, whatever the rounding errors. -/

set_option autoImplicit false
set_option linter.unusedSectionVars false

namespace Interpn
open FloatOps

section
variable {f : Format} {N : Nat}

/-- C128, nearest-neighbour on a rectilinear grid: two observations `x ≤ y` (on every axis) choose
nodes `i ≤ j`, the same for every table. Observations may be infinite; nodes after the first may be
repeated. -/
theorem C128_nearest_rectilinear (grids : Fin N → List (Ieee f))
    (hfin : ∀ k, ∀ a ∈ grids k, Ieee.Finite a ∧ 2 * |Ieee.val a| ≤ f.omega)
    (hsort : ∀ k, SortedAxis (grids k)) (x y : Fin N → Ieee f) (h : ∀ k, (x k <=. y k) = true)
    (hbig : ∀ k, SecondExceedsFirst (grids k)) :
    ∃ i j : Fin N → Nat, (∀ k, i k ≤ j k) ∧ (∀ k, j k < (grids k).length) ∧
      ∀ (vals : List (Ieee f)) (g : (Fin N → Nat) → Ieee f), RectilinearAccepted 2 grids vals →
        Samples (fun k => (grids k).length) vals g →
        nearestRectilinearAt grids vals x = .ok (g i) ∧ nearestRectilinearAt grids vals y = .ok (g j) := by
  have h2 : ∀ k, 2 ≤ (grids k).length := fun k => by
    obtain ⟨a, b, l, e, -⟩ := hbig k
    rw [e]; simp
  have hb : ∀ (z : Fin N → Ieee f) k, nearRectAxis (grids k) (z k) < (grids k).length := fun z k => by
    have := linCell_bound (h2 k) (z k)
    have := nearestOffset_le (cellPos (fun j => (grids k).getD j zero) (linCell (grids k) (z k)) (z k))
    unfold nearRectAxis
    omega
  refine ⟨fun k => nearRectAxis (grids k) (x k), fun k => nearRectAxis (grids k) (y k), ?_, hb y, ?_⟩
  · intro k
    refine Ieee.nearRectAxis_mono (h2 k) (hfin k) (hsort k) ?_ (h k)
    obtain ⟨a, b, l, e, hlt⟩ := hbig k
    rw [e]; exact hlt
  · intro vals g hG hg
    have hs := samples_valAt zero (fun k => (grids k).length) vals hG.len
    have key : ∀ z : Fin N → Ieee f, nearestRectilinearAt grids vals z =
        .ok (g fun k => nearRectAxis (grids k) (z k)) := fun z => by
      rw [nearestRectilinearAt_eq grids vals hG.slice z, hG.check le_rfl, Res.ok_bind]
      have h1 := hs _ (hb z)
      rw [hg _ (hb z), Option.some.injEq] at h1
      rw [h1]
    exact ⟨key x, key y⟩

/-- C128, nearest-neighbour on a regular grid: the same. Observations too far from the grid for the
cell number to exist are an error; `hx` and `hy` exclude them. -/
theorem C128_nearest_regular (fma : Bool) (dims : Fin N → Nat) (starts steps : Fin N → Ieee f)
    (hst : ∀ k, Ieee.Finite (starts k)) (hstep : ∀ k, Ieee.Finite (steps k)) (x y : Fin N → Ieee f)
    (h : ∀ k, (x k <=. y k) = true) (vals₀ : List (Ieee f)) (hG₀ : RegularAccepted 2 dims steps vals₀)
    (hx : ∃ r, nearestRegularAt fma dims starts steps vals₀ x = .ok r)
    (hy : ∃ r, nearestRegularAt fma dims starts steps vals₀ y = .ok r) :
    ∃ i j : Fin N → Nat, (∀ k, i k ≤ j k) ∧ (∀ k, j k < dims k) ∧
      ∀ (vals : List (Ieee f)) (g : (Fin N → Nat) → Ieee f), RegularAccepted 2 dims steps vals →
        Samples dims vals g →
        nearestRegularAt fma dims starts steps vals x = .ok (g i) ∧
        nearestRegularAt fma dims starts steps vals y = .ok (g j) := by
  have hsome : ∀ z : Fin N → Ieee f, (∃ r, nearestRegularAt fma dims starts steps vals₀ z = .ok r) →
      ∃ a : Fin N → Nat, ∀ k, nearRegAxis fma (dims k) (starts k) (steps k) (z k) = some (a k) := by
    rintro z ⟨r, hr⟩
    have h1 := (nearestRegularAt_eq fma dims starts steps vals₀ hG₀.slice z).2
    by_cases hn : ∃ k, nearRegAxis fma (dims k) (starts k) (steps k) (z k) = none
    · rw [h1 hn, hG₀.check (by decide), Res.ok_bind] at hr
      cases hr
    · have : ∀ k, ∃ a, nearRegAxis fma (dims k) (starts k) (steps k) (z k) = some a := fun k => by
        cases hk : nearRegAxis fma (dims k) (starts k) (steps k) (z k) with
        | none => exact absurd ⟨k, hk⟩ hn
        | some a => exact ⟨a, rfl⟩
      exact Classical.axiomOfChoice this
  obtain ⟨i, hi⟩ := hsome x hx
  obtain ⟨j, hj⟩ := hsome y hy
  refine ⟨i, j, fun k => Ieee.nearRegAxis_mono fma (hst k) (hstep k) (hG₀.pos k) (h k) (hi k) (hj k),
    fun k => nearRegAxis_bound (hG₀.big k) (hj k), ?_⟩
  intro vals g hG hg
  have hs := samples_valAt zero dims vals hG.len
  have key : ∀ (z : Fin N → Ieee f) (a : Fin N → Nat),
      (∀ k, nearRegAxis fma (dims k) (starts k) (steps k) (z k) = some (a k)) →
      nearestRegularAt fma dims starts steps vals z = .ok (g a) := fun z a ha => by
    rw [(nearestRegularAt_eq fma dims starts steps vals hG.slice z).1 a ha, hG.check (by decide),
      Res.ok_bind]
    have hb := fun k => nearRegAxis_bound (hG.big k) (ha k)
    have h1 := hs a hb
    rw [hg a hb, Option.some.injEq] at h1
    rw [h1]
  exact ⟨key x i hi, key y j hj⟩

/-- C128, consequence: if the table does not decrease along any axis, neither does the interpolated
result. -/
theorem C128_monotone_table (grids : Fin N → List (Ieee f)) (vals : List (Ieee f))
    (hG : RectilinearAccepted 2 grids vals)
    (hfin : ∀ k, ∀ a ∈ grids k, Ieee.Finite a ∧ 2 * |Ieee.val a| ≤ f.omega)
    (hsort : ∀ k, SortedAxis (grids k)) (g : (Fin N → Nat) → Ieee f)
    (hg : Samples (fun k => (grids k).length) vals g)
    (hmono : ∀ i j : Fin N → Nat, (∀ k, i k ≤ j k) → (∀ k, j k < (grids k).length) → (g i <=. g j) = true)
    (x y : Fin N → Ieee f) (h : ∀ k, (x k <=. y k) = true) :
    ∃ r s, nearestRectilinearAt grids vals x = .ok r ∧ nearestRectilinearAt grids vals y = .ok s ∧
      (r <=. s) = true := by
  obtain ⟨i, j, hij, hj, hr⟩ := C128_nearest_rectilinear grids hfin hsort x y h hG.order
  exact ⟨_, _, (hr vals g hG hg).1, (hr vals g hG hg).2, hmono i j hij hj⟩

/-! ### The 1-D interpolators -/

variable {grid : List (Ieee f)} {x y : Ieee f}

/-- C128, `Left1D` and `Right1D` on a rectilinear grid: no condition but the order of the nodes. -/
theorem C128_hold_rectilinear (kind : Kind1D) (hk : kind = .left ∨ kind = .right) (fma : Bool)
    (h2 : 2 ≤ grid.length) (hs : IsSlice grid) (hsort : SortedAxis grid) (h : (x <=. y) = true) :
    ∃ i j, i ≤ j ∧ j < grid.length ∧ ∀ vals : List (Ieee f), vals.length = grid.length →
      some (rectilinear1DAt (kind.evalOne fma) grid vals x) = (vals[i]?).map .ok ∧
      some (rectilinear1DAt (kind.evalOne fma) grid vals y) = (vals[j]?).map .ok := by
  have hc := Ieee.linCell_mono hsort h
  have hb := linCell_bound h2 x
  have hb' := linCell_bound h2 y
  set lo := grid.getD 0 zero with hlo
  set hi := grid.getD (grid.length - 1) zero with hhi
  have hget : ∀ (vals : List (Ieee f)) (i : Nat), vals.length = grid.length → i < grid.length →
      vals[i]? = some (vals.getD i zero) := fun vals i hl hi => by
    rw [List.getD_eq_getElem _ _ (by omega), List.getElem?_eq_getElem]
  rcases hk with rfl | rfl
  · have hle := Ieee.leftIdx_le (extrapLH lo hi y) (linCell grid y)
    have hle' := Ieee.leftIdx_le (extrapLH lo hi x) (linCell grid x)
    refine ⟨Ieee.leftIdx (extrapLH lo hi x) (linCell grid x),
      Ieee.leftIdx (extrapLH lo hi y) (linCell grid y), Ieee.leftIdx_LH h hc, by omega, ?_⟩
    intro vals hl
    rw [hget vals _ hl (by omega), hget vals _ hl (by omega)]
    have key : ∀ z : Ieee f, rectilinear1DAt (Kind1D.left.evalOne fma) grid vals z =
        .ok (vals.getD (Ieee.leftIdx (extrapLH lo hi z) (linCell grid z)) zero) := fun z => by
      unfold rectilinear1DAt RectilinearGrid1D.new
      rw [if_neg (by omega), Res.ok_bind]
      simp only [Kind1D.evalOne, Left1D.evalOne]
      rw [RectilinearGrid1D.at_ok h2 hs hl, Res.ok_bind]
      dsimp only
      rw [← hlo, ← hhi]
      cases extrapLH lo hi z <;> rfl
    rw [key, key]
    exact ⟨rfl, rfl⟩
  · have hle := Ieee.rightIdx_le (extrapLH lo hi y) (linCell grid y)
    have hle' := Ieee.rightIdx_le (extrapLH lo hi x) (linCell grid x)
    refine ⟨Ieee.rightIdx (extrapLH lo hi x) (linCell grid x),
      Ieee.rightIdx (extrapLH lo hi y) (linCell grid y), Ieee.rightIdx_LH h hc, by omega, ?_⟩
    intro vals hl
    rw [hget vals _ hl (by omega), hget vals _ hl (by omega)]
    have key : ∀ z : Ieee f, rectilinear1DAt (Kind1D.right.evalOne fma) grid vals z =
        .ok (vals.getD (Ieee.rightIdx (extrapLH lo hi z) (linCell grid z)) zero) := fun z => by
      unfold rectilinear1DAt RectilinearGrid1D.new
      rw [if_neg (by omega), Res.ok_bind]
      simp only [Kind1D.evalOne, Right1D.evalOne]
      rw [RectilinearGrid1D.at_ok h2 hs hl, Res.ok_bind]
      dsimp only
      rw [← hlo, ← hhi]
      cases extrapLH lo hi z <;> rfl
    rw [key, key]
    exact ⟨rfl, rfl⟩

/-- C128, `Nearest1D` on a rectilinear grid: up to the last node, below the grid too. Above the grid it
fails, `C128_counterexample_nearest_1d`. -/
theorem C128_nearest_1d (fma : Bool) (h2 : 2 ≤ grid.length) (hs : IsSlice grid)
    (hfin : ∀ a ∈ grid, Ieee.Finite a) (hsort : SortedAxis grid) (h : (x <=. y) = true)
    (hy : ∀ a, grid[grid.length - 1]? = some a → (y <=. a) = true) :
    ∃ i j, i ≤ j ∧ j < grid.length ∧ ∀ vals : List (Ieee f), vals.length = grid.length →
      some (rectilinear1DAt (Kind1D.nearest.evalOne fma) grid vals x) = (vals[i]?).map .ok ∧
      some (rectilinear1DAt (Kind1D.nearest.evalOne fma) grid vals y) = (vals[j]?).map .ok := by
  have hc := Ieee.linCell_mono hsort h
  have hb := linCell_bound h2 x
  have hb' := linCell_bound h2 y
  have hget : ∀ (vals : List (Ieee f)) (i : Nat), vals.length = grid.length → i < grid.length →
      vals[i]? = some (vals.getD i zero) := fun vals i hl hi => by
    rw [List.getD_eq_getElem _ _ (by omega), List.getElem?_eq_getElem]
  set D : Ieee f → Nat := fun z => Ieee.distOffset (grid.getD (linCell grid z) zero)
    (grid.getD (linCell grid z + 1) zero) z with hD
  have hD1 : ∀ z, D z ≤ 1 := fun z => by simp only [hD, Ieee.distOffset]; split <;> decide
  have hDx := hD1 x
  have hDy := hD1 y
  refine ⟨linCell grid x + D x, linCell grid y + D y, ?_, by omega, ?_⟩
  · rcases Nat.eq_or_lt_of_le hc with heq | hlt
    · simp only [hD]
      rw [← heq]
      refine Nat.add_le_add_left ?_ _
      have e0 : grid.getD (linCell grid x) zero = grid[linCell grid x]'(by omega) :=
        List.getD_eq_getElem _ _ _
      have e1 : grid.getD (linCell grid x + 1) zero = grid[linCell grid x + 1]'(by omega) :=
        List.getD_eq_getElem _ _ _
      have f0 := hfin _ (List.getElem_mem (l := grid) (n := linCell grid x) (by omega))
      have f1 := hfin _ (List.getElem_mem (l := grid) (n := linCell grid x + 1) (by omega))
      rw [e0, e1]
      refine Ieee.distOffset_mono f0 f1 ((Ieee.exactCompareLe f _ _ f0 f1).1
        (List.pairwise_iff_getElem.1 hsort _ _ (by omega) (by omega) (by omega))) h ?_
      -- the observation is not above the upper end of its cell
      have hnn : y ≠ .nan := by
        rintro rfl
        cases x <;> exact absurd h (by change ¬ (false = true); decide)
      by_cases hcb : cellsBelow grid y < grid.length
      · refine Ieee.le_of_not_lt hnn (fun e => by rw [e] at f1; exact f1) ?_
        by_contra hlt
        have := (cellsBelow_iff (Ieee.belowPrefix hsort y) (linCell grid x + 1) (by omega)).1
          (by simpa using hlt)
        rw [heq] at this
        unfold linCell at this
        omega
      · have hlast : linCell grid x + 1 = grid.length - 1 := by
          rw [heq]; unfold linCell; have := cellsBelow_le grid y; omega
        refine hy _ ?_
        rw [← hlast, List.getElem?_eq_getElem]
    · omega
  · intro vals hl
    rw [hget vals _ hl (by omega), hget vals _ hl (by omega)]
    have key : ∀ z : Ieee f, rectilinear1DAt (Kind1D.nearest.evalOne fma) grid vals z =
        .ok (vals.getD (linCell grid z + D z) zero) := fun z => by
      unfold rectilinear1DAt RectilinearGrid1D.new
      rw [if_neg (by omega), Res.ok_bind]
      simp only [Kind1D.evalOne, Nearest1D.evalOne]
      rw [RectilinearGrid1D.at_ok h2 hs hl, Res.ok_bind]
      simp only [hD, Ieee.distOffset]
      split <;> rfl
    rw [key, key]
    exact ⟨rfl, rfl⟩

/-- C128: `Left1D` and `Right1D` on a regular grid, where both evaluations succeed. -/
theorem C128_hold_regular (kind : Kind1D) (hk : kind = .left ∨ kind = .right) (fma : Bool)
    {start step : Ieee f} (hst : Ieee.Finite start) (hstep : Ieee.Finite step)
    (hpos : (zero <. step) = true) (vals₀ : List (Ieee f)) (hs : IsSlice vals₀) (h : (x <=. y) = true)
    (hx : ∃ r, regular1DAt (kind.evalOne fma) start step vals₀ x = .ok r)
    (hy : ∃ r, regular1DAt (kind.evalOne fma) start step vals₀ y = .ok r) :
    ∃ i j, i ≤ j ∧ j < vals₀.length ∧ ∀ vals : List (Ieee f), vals.length = vals₀.length →
      some (regular1DAt (kind.evalOne fma) start step vals x) = (vals[i]?).map .ok ∧
      some (regular1DAt (kind.evalOne fma) start step vals y) = (vals[j]?).map .ok := by
  have hne : 1 ≤ vals₀.length := by
    obtain ⟨r, hr⟩ := hx
    by_contra h0
    unfold regular1DAt RegularGrid1D.new usub at hr
    rw [if_neg (by omega)] at hr
    cases hr
  have hnew : ∀ vals : List (Ieee f), vals.length = vals₀.length → RegularGrid1D.new start step vals =
      .ok ⟨start, start +. step *. Ieee.rnd f false ((vals₀.length - 1 : Nat) : ℚ), step, vals⟩ := by
    intro vals hl
    rw [RegularGrid1D.new_ok (m := Ieee.rnd f false ((vals₀.length - 1 : Nat) : ℚ)) (by omega)
      (by rw [hl]; rfl)]
  set hi := start +. step *. Ieee.rnd f false ((vals₀.length - 1 : Nat) : ℚ) with hhi
  have hsome : ∀ z, (∃ r, regular1DAt (kind.evalOne fma) start step vals₀ z = .ok r) →
      2 ≤ vals₀.length ∧ ∃ c, rawCell start step z = some c := by
    rintro z ⟨r, hr⟩
    unfold regular1DAt at hr
    rw [hnew vals₀ rfl, Res.ok_bind] at hr
    cases hz : rawCell start step z with
    | none =>
      have := RegularGrid1D.at_err (stop := hi) (vals := vals₀) hz
      rcases hk with rfl | rfl <;>
        simp only [Kind1D.evalOne, Left1D.evalOne, Right1D.evalOne, this] at hr <;> cases hr
    | some c =>
      refine ⟨?_, c, rfl⟩
      by_contra h1
      have := RegularGrid1D.at_panic (stop := hi) (vals := vals₀) (loc := z) (by omega)
        (by rw [hz]; exact fun e => by cases e)
      rcases hk with rfl | rfl <;>
        simp only [Kind1D.evalOne, Left1D.evalOne, Right1D.evalOne, this] at hr <;> cases hr
  obtain ⟨h2, c, hc⟩ := hsome x hx
  obtain ⟨-, c', hc'⟩ := hsome y hy
  have hcc := clampIdx_mono (vals₀.length - 2) (Ieee.rawCell_mono hst hstep hpos h hc hc')
  have hb := clampIdx_le c (vals₀.length - 2)
  have hb' := clampIdx_le c' (vals₀.length - 2)
  have hget : ∀ (vals : List (Ieee f)) (i : Nat), vals.length = vals₀.length → i < vals₀.length →
      vals[i]? = some (vals.getD i zero) := fun vals i hl hi => by
    rw [List.getD_eq_getElem _ _ (by omega), List.getElem?_eq_getElem]
  have hsl : ∀ vals : List (Ieee f), vals.length = vals₀.length → IsSlice vals := fun vals hl => by
    rw [isSlice_iff] at hs ⊢; omega
  rcases hk with rfl | rfl
  · have hle := Ieee.leftIdx_le (extrapHL start hi y) (clampIdx c' (vals₀.length - 2))
    have hle' := Ieee.leftIdx_le (extrapHL start hi x) (clampIdx c (vals₀.length - 2))
    refine ⟨Ieee.leftIdx (extrapHL start hi x) (clampIdx c (vals₀.length - 2)),
      Ieee.leftIdx (extrapHL start hi y) (clampIdx c' (vals₀.length - 2)), Ieee.leftIdx_HL h hcc,
      by omega, ?_⟩
    intro vals hl
    rw [hget vals _ hl (by omega), hget vals _ hl (by omega)]
    have key : ∀ (z : Ieee f) (n : Int), rawCell start step z = some n →
        regular1DAt (Kind1D.left.evalOne fma) start step vals z =
        .ok (vals.getD (Ieee.leftIdx (extrapHL start hi z) (clampIdx n (vals₀.length - 2))) zero) := by
      intro z n hn
      unfold regular1DAt
      rw [hnew vals hl, Res.ok_bind]
      simp only [Kind1D.evalOne, Left1D.evalOne]
      rw [RegularGrid1D.at_ok (by omega) (hsl vals hl) hn rfl, Res.ok_bind, hl]
      dsimp only
      cases extrapHL start hi z <;> rfl
    rw [key x c hc, key y c' hc']
    exact ⟨rfl, rfl⟩
  · have hle := Ieee.rightIdx_le (extrapHL start hi y) (clampIdx c' (vals₀.length - 2))
    have hle' := Ieee.rightIdx_le (extrapHL start hi x) (clampIdx c (vals₀.length - 2))
    refine ⟨Ieee.rightIdx (extrapHL start hi x) (clampIdx c (vals₀.length - 2)),
      Ieee.rightIdx (extrapHL start hi y) (clampIdx c' (vals₀.length - 2)), Ieee.rightIdx_HL h hcc,
      by omega, ?_⟩
    intro vals hl
    rw [hget vals _ hl (by omega), hget vals _ hl (by omega)]
    have key : ∀ (z : Ieee f) (n : Int), rawCell start step z = some n →
        regular1DAt (Kind1D.right.evalOne fma) start step vals z =
        .ok (vals.getD (Ieee.rightIdx (extrapHL start hi z) (clampIdx n (vals₀.length - 2))) zero) := by
      intro z n hn
      unfold regular1DAt
      rw [hnew vals hl, Res.ok_bind]
      simp only [Kind1D.evalOne, Right1D.evalOne]
      rw [RegularGrid1D.at_ok (by omega) (hsl vals hl) hn rfl, Res.ok_bind, hl]
      dsimp only
      cases extrapHL start hi z <;> rfl
    rw [key x c hc, key y c' hc']
    exact ⟨rfl, rfl⟩

end

section Examples
set_option exponentiation.threshold 1100

/-- C128: `Nearest1D` steps back above the grid. At 2 it returns the last of the increasing values 5, 7,
at `2^60` the first. -/
theorem C128_counterexample_nearest_1d :
    (q64 2 <=. q64 (2 ^ 60)) = true ∧
    rectilinear1DAt (Kind1D.nearest.evalOne false) [q64 0, q64 1] [q64 5, q64 7] (q64 2) = .ok (q64 7) ∧
    rectilinear1DAt (Kind1D.nearest.evalOne false) [q64 0, q64 1] [q64 5, q64 7] (q64 (2 ^ 60)) =
      .ok (q64 5) := by
  decide +kernel

/-- The order of the axes of the examples. -/
theorem exGrids64_sorted : ∀ k, SortedAxis (exGrids64 k) := by
  unfold SortedAxis
  decide +kernel

/-- From minus infinity and a point just above the middle of a cell to plus infinity and the same. -/
example : ∃ i j : Fin 2 → Nat, (∀ k, i k ≤ j k) ∧ (∀ k, j k < (exGrids64 k).length) ∧
    ∀ (vals : List F64) (g : (Fin 2 → Nat) → F64), RectilinearAccepted 2 exGrids64 vals →
      Samples (fun k => (exGrids64 k).length) vals g →
      nearestRectilinearAt exGrids64 vals ![.inf true, q64 (21 / 10)] = .ok (g i) ∧
      nearestRectilinearAt exGrids64 vals ![q64 2, .inf false] = .ok (g j) :=
  C128_nearest_rectilinear exGrids64 (by decide +kernel) exGrids64_sorted _ _ (by decide +kernel)
    (by intro k; fin_cases k <;> exact ⟨_, _, _, rfl, by decide +kernel⟩)

/-- A regular grid of step 1/10 (not a float). -/
example : ∃ i j : Fin 1 → Nat, (∀ k, i k ≤ j k) ∧ (∀ k, j k < 3) ∧
    ∀ (vals : List F64) (g : (Fin 1 → Nat) → F64),
      RegularAccepted (N := 1) 2 (fun _ => 3) (fun _ => q64 (1 / 10)) vals → Samples (fun _ => 3) vals g →
      nearestRegularAt false (fun _ => 3) (fun _ => q64 (-1)) (fun _ => q64 (1 / 10)) vals
        ![q64 (-95 / 100)] = .ok (g i) ∧
      nearestRegularAt false (fun _ => 3) (fun _ => q64 (-1)) (fun _ => q64 (1 / 10)) vals
        ![q64 (-94 / 100)] = .ok (g j) :=
  C128_nearest_regular false (fun _ => 3) (fun _ => q64 (-1)) (fun _ => q64 (1 / 10)) (by decide +kernel)
    (by decide +kernel) ![q64 (-95 / 100)] ![q64 (-94 / 100)] (by decide +kernel) [q64 5, q64 6, q64 7]
    ⟨by unfold IsSlice; decide, by decide, by decide, by decide +kernel⟩
    ⟨q64 6, by decide +kernel⟩ ⟨q64 6, by decide +kernel⟩

/-- An increasing table. -/
example (x y : Fin 1 → F64) (h : ∀ k, (x k <=. y k) = true) :
    ∃ r s, nearestRectilinearAt (fun _ => [q64 0, q64 (1 / 10), q64 4]) [q64 2, q64 6, .inf false] x =
      .ok r ∧ nearestRectilinearAt (fun _ => [q64 0, q64 (1 / 10), q64 4]) [q64 2, q64 6, .inf false] y =
      .ok s ∧ (r <=. s) = true := by
  have hmono : ∀ b < 3, ∀ a ≤ b, (([q64 2, q64 6, .inf false] : List F64).getD a zero <=.
      ([q64 2, q64 6, .inf false] : List F64).getD b zero) = true := by decide +kernel
  refine C128_monotone_table (N := 1) _ _
    ⟨by unfold IsSlice; decide, by decide, by decide, fun _ => ⟨_, _, _, rfl, by decide +kernel⟩⟩
    (by decide +kernel) (fun _ => by unfold SortedAxis; decide +kernel)
    (fun i => ([q64 2, q64 6, .inf false] : List F64).getD (i 0) zero) ?_ ?_ x y h
  · intro loc hloc
    have h3 : loc 0 < 3 := hloc 0
    have hi : cIndex (fun _ : Fin 1 => 3) loc = loc 0 := by simp [cIndex]
    change ([q64 2, q64 6, .inf false] : List F64)[cIndex (fun _ : Fin 1 => 3) loc]? = _
    dsimp only
    rw [hi, List.getD_eq_getElem _ _ (by exact h3), List.getElem?_eq_getElem]
  · intro i j hij hj
    exact hmono (j 0) (hj 0) (i 0) (hij 0)

/-- `Left1D` and `Right1D` with a repeated node, from below the grid to above. -/
example (fma : Bool) : ∃ i j, i ≤ j ∧ j < 4 ∧ ∀ vals : List F64, vals.length = 4 →
    some (rectilinear1DAt (Kind1D.right.evalOne fma) [q64 0, q64 1, q64 1, q64 4] vals (q64 1)) =
      (vals[i]?).map .ok ∧
    some (rectilinear1DAt (Kind1D.right.evalOne fma) [q64 0, q64 1, q64 1, q64 4] vals (.inf false)) =
      (vals[j]?).map .ok :=
  C128_hold_rectilinear (grid := [q64 0, q64 1, q64 1, q64 4]) .right (.inr rfl) fma (by decide) (by unfold IsSlice; decide)
    (by unfold SortedAxis; decide +kernel) (by decide +kernel)

/-- `Nearest1D`, up to the last node. -/
example (fma : Bool) : ∃ i j, i ≤ j ∧ j < 3 ∧ ∀ vals : List F64, vals.length = 3 →
    some (rectilinear1DAt (Kind1D.nearest.evalOne fma) [q64 0, q64 (1 / 10), q64 4] vals (q64 2)) =
      (vals[i]?).map .ok ∧
    some (rectilinear1DAt (Kind1D.nearest.evalOne fma) [q64 0, q64 (1 / 10), q64 4] vals (q64 4)) =
      (vals[j]?).map .ok :=
  C128_nearest_1d (grid := [q64 0, q64 (1 / 10), q64 4]) fma (by decide) (by unfold IsSlice; decide) (by decide +kernel)
    (by unfold SortedAxis; decide +kernel) (by decide +kernel)
    (by intro a ha; cases ha; decide +kernel)

/-- `Left1D` on a regular grid. -/
example : ∃ i j, i ≤ j ∧ j < 3 ∧ ∀ vals : List F64, vals.length = 3 →
    some (regular1DAt (Kind1D.left.evalOne false) (q64 (-1)) (q64 (1 / 10)) vals (q64 (-9 / 10))) =
      (vals[i]?).map .ok ∧
    some (regular1DAt (Kind1D.left.evalOne false) (q64 (-1)) (q64 (1 / 10)) vals (q64 12)) =
      (vals[j]?).map .ok :=
  C128_hold_regular .left (.inl rfl) false (by decide +kernel) (by decide +kernel) (by decide +kernel)
    [q64 5, q64 6, q64 7] (by unfold IsSlice; decide) (by decide +kernel)
    ⟨q64 5, by decide +kernel⟩ ⟨q64 7, by decide +kernel⟩

end Examples

end Interpn
