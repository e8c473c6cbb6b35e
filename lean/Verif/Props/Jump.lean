import Verif.Spec.Jump
import Verif.Props.Crop

/-! C125: on a rectilinear axis a node may be repeated. The table then has a jump there: an observation
up to the node is answered from the part of the table below it, an observation above the node from the
part above it, and no cell of width zero is ever used. -/

set_option autoImplicit false
set_option linter.unusedSectionVars false

namespace Interpn
open FloatOps

section
variable {f : Format} {N : Nat}

theorem Ieee.lt_of_lt_of_not_lt {a b v : Ieee f} (h1 : (a <. v) = true) (h2 : (b <. v) = false)
    (h : (a <=. b) = true) : (a <. b) = true := by
  change Ieee.lt a v = true at h1
  change Ieee.lt b v = false at h2
  change Ieee.le a b = true at h
  change Ieee.lt a b = true
  cases a <;> cases b <;> cases v <;> simp_all [Ieee.lt, Ieee.le]
  exact h1.trans_le h2

/-- The cell the code selects is a proper one. -/
theorem inProperCell {grid : List (Ieee f)} (hsort : SortedAxis grid) (hfirst : SecondExceedsFirst grid)
    (hlast : LastExceedsPrevious grid) (v : Ieee f) : InProperCell grid (linCell grid v) v := by
  obtain ⟨n, a', b', hn, ha', hb', hab'⟩ := hlast
  have hi := fun i hi => cellsBelow_iff (Ieee.belowPrefix hsort v) i hi
  have hle := cellsBelow_le grid v
  have get : ∀ i (hi : i < grid.length), grid[i]? = some grid[i] := fun i hi =>
    List.getElem?_eq_getElem hi
  have notlt : ∀ i (h : i < grid.length), cellsBelow grid v ≤ i → (grid[i] <. v) = false := by
    intro i h hc
    by_contra hne
    have := (hi i h).1 (by simpa using hne)
    omega
  rcases Nat.eq_zero_or_pos (cellsBelow grid v) with h0 | hpos
  · have hc : linCell grid v = 0 := by unfold linCell; omega
    obtain ⟨x0, x1, r, rfl, hlt⟩ := hfirst
    rw [hc]
    exact ⟨x0, x1, rfl, rfl, hlt, .inl rfl, .inr (notlt 1 (by simp) (by omega))⟩
  · by_cases htop : cellsBelow grid v = grid.length
    · have hc : linCell grid v = n := by unfold linCell; omega
      rw [hc]
      refine ⟨a', b', ha', hb', hab', .inr ?_, .inl (by omega)⟩
      rw [get n (by omega)] at ha'
      rw [← Option.some.inj ha']
      exact (hi n (by omega)).2 (by omega)
    · have hc : linCell grid v = cellsBelow grid v - 1 := by unfold linCell; omega
      rw [hc]
      have h1 := (hi (cellsBelow grid v - 1) (by omega)).2 (by omega)
      have h2 := notlt (cellsBelow grid v - 1 + 1) (by omega) (by omega)
      refine ⟨_, _, get _ (by omega), get _ (by omega), ?_, .inr h1, .inr h2⟩
      exact Ieee.lt_of_lt_of_not_lt h1 h2
        (List.pairwise_iff_getElem.1 hsort _ _ (by omega) (by omega) (by omega))

theorem InProperCell.keptBy {grid : List (Ieee f)} {o : Nat} {v : Ieee f} (h : InProperCell grid o v) :
    KeptBy 0 grid o 2 v := by
  obtain ⟨a, b, ha, hb, _, hlo, hhi⟩ := h
  have := (List.getElem?_eq_some_iff.1 hb).1
  exact ⟨by omega, hlo.imp_right fun h => ⟨a, ha, h⟩, hhi.imp_right fun h => ⟨b, hb, h⟩⟩

theorem InProperCell.accepted {grid : List (Ieee f)} {o : Nat} {v : Ieee f} (h : InProperCell grid o v) :
    SecondExceedsFirst (cropAxis o 2 grid) := by
  have hk := h.keptBy.1
  obtain ⟨a, b, ha, hb, hab, _⟩ := h
  obtain ⟨_, rfl⟩ := List.getElem?_eq_some_iff.1 ha
  obtain ⟨_, rfl⟩ := List.getElem?_eq_some_iff.1 hb
  refine ⟨_, _, [], ?_, hab⟩
  unfold cropAxis
  rw [List.drop_eq_getElem_cons (by omega), List.drop_eq_getElem_cons (by omega)]
  rfl

theorem JumpAt.keptBy {grid : List (Ieee f)} {i : Nat} {upper : Bool} {v : Ieee f}
    (h : JumpAt grid i upper v) :
    KeptBy 0 grid (jumpStart i upper) (jumpCount grid i upper) v := by
  obtain ⟨a, b, ha, hb, hba, hv⟩ := h
  have := (List.getElem?_eq_some_iff.1 hb).1
  cases upper
  · exact ⟨by simp only [jumpStart, jumpCount]; simp; omega, .inl rfl, .inr ⟨a, by simpa [jumpStart, jumpCount] using ha, hv⟩⟩
  · exact ⟨by simp only [jumpStart, jumpCount]; simp; omega,
      .inr ⟨b, by simpa [jumpStart] using hb, Ieee.lt_of_le_of_lt hba hv⟩,
      .inl (by simp only [jumpStart, jumpCount]; simp; omega)⟩

theorem InProperCell.all {grids : Fin N → List (Ieee f)} {o : Fin N → Nat} {x : Fin N → Ieee f}
    (h : ∀ k, InProperCell (grids k) (o k) (x k)) {vals' : List (Ieee f)} (hs : IsSlice vals')
    (hl : vals'.length = 2 ^ N) :
    RectilinearAccepted 2 (fun k => cropAxis (o k) 2 (grids k)) vals' where
  slice := hs
  len := by
    rw [hl]
    simp [fun k => cropAxis_length (h k).keptBy.1]
  big k := by rw [cropAxis_length (h k).keptBy.1]
  order k := (h k).accepted

/-- C125, multilinear: on every axis two neighbouring, different nodes with the observation between
them (or beyond, at the ends of the axis) are used, and the result is that of the table that consists
of these nodes and the values at them. Nodes may be repeated anywhere but at the ends. -/
theorem C125_multilinear_rectilinear (e e' : Evaluator) (he : e.Fits N) (he' : e'.Fits N) (fma : Bool)
    (grids : Fin N → List (Ieee f)) (vals : List (Ieee f)) (hG : RectilinearAccepted 2 grids vals)
    (hsort : ∀ k, SortedAxis (grids k)) (hlast : ∀ k, LastExceedsPrevious (grids k))
    (g : (Fin N → Nat) → Ieee f) (hg : Samples (fun k => (grids k).length) vals g)
    (x : Fin N → Ieee f) :
    ∃ o : Fin N → Nat, (∀ k, InProperCell (grids k) (o k) (x k)) ∧
      ∀ vals' : List (Ieee f), IsSlice vals' → vals'.length = 2 ^ N →
        Samples (fun _ => 2) vals' (fun loc => g fun k => o k + loc k) →
        ∃ y, multilinearRectilinearAt e fma grids vals x = .ok y ∧
          multilinearRectilinearAt e' fma (fun k => cropAxis (o k) 2 (grids k)) vals' x = .ok y := by
  have h := fun k => inProperCell (hsort k) (hG.order k) (hlast k) (x k)
  exact ⟨_, h, fun vals' hs hl hg' => C120_multilinear_rectilinear e e' he he' fma grids vals vals' _ _ hG
    (InProperCell.all h hs hl) hsort g hg hg' x fun k => (h k).keptBy⟩

/-- C125, nearest-neighbour. -/
theorem C125_nearest_rectilinear (grids : Fin N → List (Ieee f)) (vals : List (Ieee f))
    (hG : RectilinearAccepted 2 grids vals)
    (hsort : ∀ k, SortedAxis (grids k)) (hlast : ∀ k, LastExceedsPrevious (grids k))
    (g : (Fin N → Nat) → Ieee f) (hg : Samples (fun k => (grids k).length) vals g)
    (x : Fin N → Ieee f) :
    ∃ o : Fin N → Nat, (∀ k, InProperCell (grids k) (o k) (x k)) ∧
      ∀ vals' : List (Ieee f), IsSlice vals' → vals'.length = 2 ^ N →
        Samples (fun _ => 2) vals' (fun loc => g fun k => o k + loc k) →
        ∃ y, nearestRectilinearAt grids vals x = .ok y ∧
          nearestRectilinearAt (fun k => cropAxis (o k) 2 (grids k)) vals' x = .ok y := by
  have h := fun k => inProperCell (hsort k) (hG.order k) (hlast k) (x k)
  exact ⟨_, h, fun vals' hs hl hg' => C120_nearest_rectilinear grids vals vals' _ _ hG
    (InProperCell.all h hs hl) hsort g hg hg' x fun k => (h k).keptBy⟩

/-- C125, the five 1-D interpolators. -/
theorem C125_rectilinear_1d (kind : Kind1D) (fma : Bool) (grid vals : List (Ieee f))
    (hl : vals.length = grid.length) (hs : IsSlice grid) (hsort : SortedAxis grid)
    (hfirst : SecondExceedsFirst grid) (hlast : LastExceedsPrevious grid) (x : Ieee f) :
    ∃ o, InProperCell grid o x ∧
      rectilinear1DAt (kind.evalOne fma) grid vals x =
        rectilinear1DAt (kind.evalOne fma) (cropAxis o 2 grid) (cropAxis o 2 vals) x := by
  have h := inProperCell hsort hfirst hlast x
  exact ⟨_, h, (C120_rectilinear_1d kind fma grid vals _ 2 hl hs le_rfl hsort x h.keptBy).symm⟩

/-- C125, a jump on every axis, multilinear: wherever nodes `i k` and `i k + 1` of axis `k` coincide, an
observation that is not above the node gets the result of the table without the nodes after `i k`, and
one above the node that of the table without the nodes before `i k + 1`. -/
theorem C125_jump_multilinear (e e' : Evaluator) (he : e.Fits N) (he' : e'.Fits N) (fma : Bool)
    (grids : Fin N → List (Ieee f)) (vals vals' : List (Ieee f)) (i : Fin N → Nat) (upper : Fin N → Bool)
    (hG : RectilinearAccepted 2 grids vals) (hsort : ∀ k, SortedAxis (grids k))
    (x : Fin N → Ieee f) (hx : ∀ k, JumpAt (grids k) (i k) (upper k) (x k))
    (hG' : RectilinearAccepted 2 (fun k =>
      cropAxis (jumpStart (i k) (upper k)) (jumpCount (grids k) (i k) (upper k)) (grids k)) vals')
    (g : (Fin N → Nat) → Ieee f) (hg : Samples (fun k => (grids k).length) vals g)
    (hg' : Samples (fun k => jumpCount (grids k) (i k) (upper k)) vals' fun loc =>
      g fun k => jumpStart (i k) (upper k) + loc k) :
    ∃ y, multilinearRectilinearAt e fma grids vals x = .ok y ∧
      multilinearRectilinearAt e' fma (fun k =>
        cropAxis (jumpStart (i k) (upper k)) (jumpCount (grids k) (i k) (upper k)) (grids k))
        vals' x = .ok y :=
  C120_multilinear_rectilinear e e' he he' fma grids vals vals' _ _ hG hG' hsort g hg hg' x
    fun k => (hx k).keptBy

/-- C125, a jump on every axis, nearest-neighbour. -/
theorem C125_jump_nearest (grids : Fin N → List (Ieee f)) (vals vals' : List (Ieee f))
    (i : Fin N → Nat) (upper : Fin N → Bool)
    (hG : RectilinearAccepted 2 grids vals) (hsort : ∀ k, SortedAxis (grids k))
    (x : Fin N → Ieee f) (hx : ∀ k, JumpAt (grids k) (i k) (upper k) (x k))
    (hG' : RectilinearAccepted 2 (fun k =>
      cropAxis (jumpStart (i k) (upper k)) (jumpCount (grids k) (i k) (upper k)) (grids k)) vals')
    (g : (Fin N → Nat) → Ieee f) (hg : Samples (fun k => (grids k).length) vals g)
    (hg' : Samples (fun k => jumpCount (grids k) (i k) (upper k)) vals' fun loc =>
      g fun k => jumpStart (i k) (upper k) + loc k) :
    ∃ y, nearestRectilinearAt grids vals x = .ok y ∧
      nearestRectilinearAt (fun k =>
        cropAxis (jumpStart (i k) (upper k)) (jumpCount (grids k) (i k) (upper k)) (grids k))
        vals' x = .ok y :=
  C120_nearest_rectilinear grids vals vals' _ _ hG hG' hsort g hg hg' x fun k => (hx k).keptBy

/-- C125, a jump in one of the 1-D interpolators. -/
theorem C125_jump_1d (kind : Kind1D) (fma : Bool) (grid vals : List (Ieee f)) (i : Nat) (upper : Bool)
    (hl : vals.length = grid.length) (hs : IsSlice grid) (hsort : SortedAxis grid)
    (x : Ieee f) (hx : JumpAt grid i upper x) (hm : 2 ≤ jumpCount grid i upper) :
    rectilinear1DAt (kind.evalOne fma) grid vals x =
      rectilinear1DAt (kind.evalOne fma) (cropAxis (jumpStart i upper) (jumpCount grid i upper) grid)
        (cropAxis (jumpStart i upper) (jumpCount grid i upper) vals) x :=
  (C120_rectilinear_1d kind fma grid vals _ _ hl hs hm hsort x hx.keptBy).symm

end

/-- C125: the last node must not be repeated. Above it the cell of width zero is used, and the result
is not a number (if the last two values agree) or infinite. -/
theorem C125_counterexample_end :
    let grids : Fin 1 → List F64 := ![[q64 0, q64 1, q64 1]]
    RectilinearAccepted 2 grids (([1, 2, 2] : List ℚ).map q64) ∧ SortedAxis (grids 0) ∧
    (multilinearRectilinearAt .flat true grids (([1, 2, 2] : List ℚ).map q64) ![q64 2] = .ok .nan ∧
    multilinearRectilinearAt .flat true grids (([1, 2, 3] : List ℚ).map q64) ![q64 2] =
      .ok (.inf false)) := by
  refine ⟨⟨by unfold IsSlice; decide, by decide, by decide, ?_⟩, ?_, ?_, ?_⟩
  · intro k; fin_cases k; exact ⟨_, _, _, rfl, by decide +kernel⟩
  · unfold SortedAxis; decide +kernel
  · decide +kernel
  · decide +kernel

/-- C125: multicubic interpolation does not allow for a repeated node among the four nodes it uses, even
if the observation is in a proper cell: here the result is not a number, where the multilinear one is 3. -/
theorem C125_counterexample_cubic :
    let grids : Fin 1 → List F64 := ![([0, 1, 2, 2, 3, 4] : List ℚ).map q64]
    let vals := ([1, 2, 4, 8, 9, 7] : List ℚ).map q64
    RectilinearAccepted 4 grids vals ∧ SortedAxis (grids 0) ∧ LastExceedsPrevious (grids 0) ∧
    multicubicRectilinearAt .flat true grids vals false ![q64 (3 / 2)] = .ok .nan ∧
    multilinearRectilinearAt .flat true grids vals ![q64 (3 / 2)] = .ok (q64 3) := by
  refine ⟨⟨by unfold IsSlice; decide, by decide, by decide, ?_⟩, ?_, ?_, ?_, ?_⟩
  · intro k; fin_cases k; exact ⟨_, _, _, rfl, by decide +kernel⟩
  · unfold SortedAxis; decide +kernel
  · exact ⟨4, _, _, rfl, rfl, rfl, by decide +kernel⟩
  · decide +kernel
  · decide +kernel

section Examples

/-- A jump from 4 to 8 at node 2, seen from both sides. -/
example :
    let grids : Fin 1 → List F64 := ![([0, 1, 2, 2, 3, 4] : List ℚ).map q64]
    let vals := ([1, 2, 4, 8, 9, 7] : List ℚ).map q64
    multilinearRectilinearAt .flat true grids vals ![q64 2] = .ok (q64 4) ∧
    multilinearRectilinearAt .flat true grids vals ![q64 (5 / 2)] = .ok (q64 (17 / 2)) ∧
    (∃ y, multilinearRectilinearAt .flat true grids vals ![q64 2] = .ok y ∧
      multilinearRectilinearAt .flat true (fun k => cropAxis 0 3 (grids k))
        (([1, 2, 4] : List ℚ).map q64) ![q64 2] = .ok y) ∧
    ∃ y, multilinearRectilinearAt .flat true grids vals ![q64 (9 / 4)] = .ok y ∧
      multilinearRectilinearAt .flat true (fun k => cropAxis 3 ((grids k).length - 3) (grids k))
        (([8, 9, 7] : List ℚ).map q64) ![q64 (9 / 4)] = .ok y := by
  intro grids vals
  have hG : RectilinearAccepted 2 grids vals := by
    refine ⟨by unfold IsSlice; decide, by decide, by decide, ?_⟩
    intro k; fin_cases k; exact ⟨_, _, _, rfl, by decide +kernel⟩
  have hs : ∀ k, SortedAxis (grids k) := by unfold SortedAxis; decide +kernel
  refine ⟨by decide +kernel, by decide +kernel, ?_, ?_⟩
  · refine C125_jump_multilinear .flat .flat (by unfold Evaluator.Fits; decide) (by unfold Evaluator.Fits; decide) true grids vals (([1, 2, 4] : List ℚ).map q64)
      (fun _ => 2) (fun _ => false) hG hs _ ?_ ⟨by unfold IsSlice; decide, by decide, by decide, ?_⟩
      (valAt (q64 0) (fun k => (grids k).length) vals) (samples_valAt _ _ _ (by decide)) (samples_check ?_)
    · intro k; fin_cases k; exact ⟨_, _, rfl, rfl, by decide +kernel, by decide +kernel⟩
    · intro k; fin_cases k; exact ⟨_, _, _, rfl, by decide +kernel⟩
    · decide +kernel
  · refine C125_jump_multilinear .flat .flat (by unfold Evaluator.Fits; decide) (by unfold Evaluator.Fits; decide) true grids vals (([8, 9, 7] : List ℚ).map q64)
      (fun _ => 2) (fun _ => true) hG hs _ ?_ ⟨by unfold IsSlice; decide, by decide, by decide, ?_⟩
      (valAt (q64 0) (fun k => (grids k).length) vals) (samples_valAt _ _ _ (by decide)) (samples_check ?_)
    · intro k; fin_cases k; exact ⟨_, _, rfl, rfl, by decide +kernel, by decide +kernel⟩
    · intro k; fin_cases k; exact ⟨_, _, _, rfl, by decide +kernel⟩
    · decide +kernel

/-- The cell used at an observation above a node that occurs three times. -/
example :
    let grids : Fin 1 → List F64 := ![([0, 2, 2, 2, 4] : List ℚ).map q64]
    let vals := ([1, 4, 5, 8, 9] : List ℚ).map q64
    (∃ o : Fin 1 → Nat, ∀ k, InProperCell (grids k) (o k) (![q64 3] k)) ∧
      nearestRectilinearAt grids vals ![q64 (5 / 2)] = .ok (q64 8) ∧
      nearestRectilinearAt grids vals ![q64 2] = .ok (q64 4) := by
  intro grids vals
  refine ⟨?_, by decide +kernel, by decide +kernel⟩
  obtain ⟨o, ho, -⟩ := C125_nearest_rectilinear grids vals
    ⟨by unfold IsSlice; decide, by decide, by decide, fun k => by
      fin_cases k; exact ⟨_, _, _, rfl, by decide +kernel⟩⟩ (by unfold SortedAxis; decide +kernel)
    (fun k => by fin_cases k; exact ⟨3, _, _, rfl, rfl, rfl, by decide +kernel⟩)
    (valAt (q64 0) (fun k => (grids k).length) vals) (samples_valAt _ _ _ (by decide)) ![q64 3]
  exact ⟨o, ho⟩

/-- 1-D with a repeated node: proper cell, and the part above the jump. -/
example (kind : Kind1D) (fma : Bool) :
    let grid := ([0, 2, 2, 4] : List ℚ).map q64
    let vals := ([1, 4, 8, 9] : List ℚ).map q64
    (∃ o, InProperCell grid o (q64 2) ∧ rectilinear1DAt (kind.evalOne fma) grid vals (q64 2) =
      rectilinear1DAt (kind.evalOne fma) (cropAxis o 2 grid) (cropAxis o 2 vals) (q64 2)) ∧
    rectilinear1DAt (kind.evalOne fma) grid vals (.inf false) =
      rectilinear1DAt (kind.evalOne fma) (cropAxis 2 2 grid) (cropAxis 2 2 vals) (.inf false) :=
  ⟨C125_rectilinear_1d kind fma _ _ (by decide) (by unfold IsSlice; decide)
    (by unfold SortedAxis; decide +kernel) ⟨_, _, _, rfl, by decide +kernel⟩
    ⟨2, _, _, rfl, rfl, rfl, by decide +kernel⟩ _,
  C125_jump_1d kind fma _ _ 1 true (by decide) (by unfold IsSlice; decide)
    (by unfold SortedAxis; decide +kernel) _ ⟨_, _, rfl, rfl, by decide +kernel, by decide +kernel⟩
    (by decide)⟩

end Examples

end Interpn
