import Verif.Lemmas.Crop
import Verif.Lemmas.IeeeExamples

/-! C120: keeping only a part of the table does not change a bit of the result. -/

set_option autoImplicit false
set_option exponentiation.threshold 1100

namespace Interpn
open FloatOps

section
variable {f : Format} {N : Nat}

theorem valAt_eq {T : Type} [FloatOps T] {dims : Fin N → Nat} {vals : List T}
    (hl : vals.length = ∏ k, dims k) {g : (Fin N → Nat) → T} (hg : Samples dims vals g)
    (loc : Fin N → Nat) (h : ∀ k, loc k < dims k) : valAt zero dims vals loc = g loc :=
  Option.some.inj ((samples_valAt zero _ _ hl loc h).symm.trans (hg loc h))

/-- C120, multilinear interpolation on rectilinear grids. The nodes `a k`, ..., `a k + m k - 1` of axis
`k` are kept, with the values that belong to them. Inside the range kept (and beyond, where it reaches
the end of the axis) the result is the same float, infinities and NaN in the data or the observation
included. -/
theorem C120_multilinear_rectilinear (e e' : Evaluator) (he : e.Fits N) (he' : e'.Fits N) (fma : Bool)
    (grids : Fin N → List (Ieee f)) (vals vals' : List (Ieee f)) (a m : Fin N → Nat)
    (hG : RectilinearAccepted 2 grids vals)
    (hG' : RectilinearAccepted 2 (fun k => cropAxis (a k) (m k) (grids k)) vals')
    (hsort : ∀ k, SortedAxis (grids k)) (g : (Fin N → Nat) → Ieee f)
    (hg : Samples (fun k => (grids k).length) vals g)
    (hg' : Samples m vals' fun loc => g fun k => a k + loc k)
    (x : Fin N → Ieee f) (hx : ∀ k, KeptBy 0 (grids k) (a k) (m k) (x k)) :
    ∃ y, multilinearRectilinearAt e fma grids vals x = .ok y ∧
      multilinearRectilinearAt e' fma (fun k => cropAxis (a k) (m k) (grids k)) vals' x = .ok y := by
  have hlen : (fun k => (cropAxis (a k) (m k) (grids k)).length) = m :=
    funext fun k => cropAxis_length (hx k).1
  have hm : ∀ k, 2 ≤ m k := fun k => by have := hG'.big k; rwa [cropAxis_length (hx k).1] at this
  have hl' : vals'.length = ∏ k, m k := by rw [hG'.len, hlen]
  refine ⟨axisByAxis (fun k => linRule fma (grids k) (x k)) g, ?_, ?_⟩
  · rw [multilinearRectilinearAt_eq e he fma grids vals hG.slice, hG.check le_rfl, Res.ok_bind]
    congr 1
    refine axisByAxis_congr (fun k i => i < (grids k).length) _ _ _ _ (fun k u u' h => ?_)
      (fun loc h => valAt_eq hG.len hg loc h)
    have hb := linCell_bound (hG.big k) (x k)
    unfold linRule
    congr 1; funext p; exact h _ (by omega)
  · rw [multilinearRectilinearAt_eq e' he' fma _ vals' hG'.slice, hG'.check le_rfl, Res.ok_bind, hlen,
      ← axisByAxis_shifted a _ (fun k => linRule fma (cropAxis (a k) (m k) (grids k)) (x k)) g
        fun k u => linRule_crop fma (Ieee.belowPrefix (hsort k) (x k)) (hm k) (hx k) u]
    congr 1
    refine axisByAxis_congr (fun k i => i < m k) _ _ _ _ (fun k u u' h => ?_)
      (fun loc h => valAt_eq hl' hg' loc h)
    have hb := linCell_bound (grid := cropAxis (a k) (m k) (grids k)) (hG'.big k) (x k)
    rw [cropAxis_length (hx k).1] at hb
    unfold linRule
    congr 1; funext p; exact h _ (by omega)

/-- C120, multicubic interpolation on rectilinear grids: the same between the second and the last but
one node kept, and beyond where the part reaches the end of the axis. -/
theorem C120_multicubic_rectilinear (e : Evaluator) (he : e.Fits N) (fma lin : Bool)
    (grids : Fin N → List (Ieee f)) (vals vals' : List (Ieee f)) (a m : Fin N → Nat)
    (hG : RectilinearAccepted 4 grids vals)
    (hG' : RectilinearAccepted 4 (fun k => cropAxis (a k) (m k) (grids k)) vals')
    (hsort : ∀ k, SortedAxis (grids k)) (g : (Fin N → Nat) → Ieee f)
    (hg : Samples (fun k => (grids k).length) vals g)
    (hg' : Samples m vals' fun loc => g fun k => a k + loc k)
    (x : Fin N → Ieee f) (hx : ∀ k, KeptBy 1 (grids k) (a k) (m k) (x k)) :
    ∃ y, multicubicRectilinearAt e fma grids vals lin x = .ok y ∧
      multicubicRectilinearAt e fma (fun k => cropAxis (a k) (m k) (grids k)) vals' lin x = .ok y := by
  have hlen : (fun k => (cropAxis (a k) (m k) (grids k)).length) = m :=
    funext fun k => cropAxis_length (hx k).1
  have hm : ∀ k, 4 ≤ m k := fun k => by have := hG'.big k; rwa [cropAxis_length (hx k).1] at this
  have hl' : vals'.length = ∏ k, m k := by rw [hG'.len, hlen]
  refine ⟨axisByAxis (fun k => cubRectRule fma (e.fmaBdry fma) (e.fmaBdry fma) lin (grids k) (x k)) g,
    ?_, ?_⟩
  · rw [multicubicRectilinearAt_eq e he fma grids vals lin hG.slice, hG.check (by omega), Res.ok_bind]
    congr 1
    refine axisByAxis_congr (fun k i => i < (grids k).length) _ _ _ _ (fun k u u' h => ?_)
      (fun loc h => valAt_eq hG.len hg loc h)
    have hb := cubCell_bound (hG.big k) (x k)
    unfold cubRectRule
    congr 1; funext p; exact h _ (by omega)
  · rw [multicubicRectilinearAt_eq e he fma _ vals' lin hG'.slice, hG'.check (by omega), Res.ok_bind,
      hlen, ← axisByAxis_shifted a _
        (fun k => cubRectRule fma (e.fmaBdry fma) (e.fmaBdry fma) lin
          (cropAxis (a k) (m k) (grids k)) (x k)) g
        fun k u => cubRectRule_crop _ _ _ _ (Ieee.belowPrefix (hsort k) (x k)) (hm k) (hx k) u]
    congr 1
    refine axisByAxis_congr (fun k i => i < m k) _ _ _ _ (fun k u u' h => ?_)
      (fun loc h => valAt_eq hl' hg' loc h)
    have hb := cubCell_bound (grid := cropAxis (a k) (m k) (grids k)) (hG'.big k) (x k)
    rw [cropAxis_length (hx k).1] at hb
    unfold cubRectRule
    congr 1; funext p; exact h _ (by omega)

/-- C120, nearest-neighbor interpolation on rectilinear grids. -/
theorem C120_nearest_rectilinear
    (grids : Fin N → List (Ieee f)) (vals vals' : List (Ieee f)) (a m : Fin N → Nat)
    (hG : RectilinearAccepted 2 grids vals)
    (hG' : RectilinearAccepted 2 (fun k => cropAxis (a k) (m k) (grids k)) vals')
    (hsort : ∀ k, SortedAxis (grids k)) (g : (Fin N → Nat) → Ieee f)
    (hg : Samples (fun k => (grids k).length) vals g)
    (hg' : Samples m vals' fun loc => g fun k => a k + loc k)
    (x : Fin N → Ieee f) (hx : ∀ k, KeptBy 0 (grids k) (a k) (m k) (x k)) :
    ∃ y, nearestRectilinearAt grids vals x = .ok y ∧
      nearestRectilinearAt (fun k => cropAxis (a k) (m k) (grids k)) vals' x = .ok y := by
  have hlen : (fun k => (cropAxis (a k) (m k) (grids k)).length) = m :=
    funext fun k => cropAxis_length (hx k).1
  have hm : ∀ k, 2 ≤ m k := fun k => by have := hG'.big k; rwa [cropAxis_length (hx k).1] at this
  have hl' : vals'.length = ∏ k, m k := by rw [hG'.len, hlen]
  refine ⟨g fun k => nearRectAxis (grids k) (x k), ?_, ?_⟩
  · rw [nearestRectilinearAt_eq grids vals hG.slice, hG.check le_rfl, Res.ok_bind,
      valAt_eq hG.len hg _ fun k => nearRectAxis_bound (hG.big k) _]
  · rw [nearestRectilinearAt_eq _ vals' hG'.slice, hG'.check le_rfl, Res.ok_bind, hlen,
      valAt_eq hl' hg' _ fun k => ?_]
    · congr 2; funext k
      exact (nearRectAxis_crop (Ieee.belowPrefix (hsort k) (x k)) (hm k) (hx k)).symm
    · have := nearRectAxis_bound (hG'.big k) (x k)
      rwa [cropAxis_length (hx k).1] at this

/-- C120, the five 1-D interpolators on rectilinear grids. -/
theorem C120_rectilinear_1d (kind : Kind1D) (fma : Bool) (grid vals : List (Ieee f)) (a m : Nat)
    (hl : vals.length = grid.length) (hs : IsSlice grid) (hm : 2 ≤ m) (hsort : SortedAxis grid)
    (x : Ieee f) (hx : KeptBy 0 grid a m x) :
    rectilinear1DAt (kind.evalOne fma) (cropAxis a m grid) (cropAxis a m vals) x =
      rectilinear1DAt (kind.evalOne fma) grid vals x := by
  have hle := hx.1
  have hlen := cropAxis_length hle
  have hlen' : (cropAxis a m vals).length = m := cropAxis_length (by omega)
  have hp := Ieee.belowPrefix hsort x
  have hs' : IsSlice (cropAxis a m grid) := by
    rw [isSlice_iff] at hs ⊢; rw [hlen]; omega
  have hsample : RectilinearGrid1D.at ⟨cropAxis a m grid, cropAxis a m vals⟩ x =
      RectilinearGrid1D.at ⟨grid, vals⟩ x := by
    rw [RectilinearGrid1D.at_ok (by omega) hs hl, RectilinearGrid1D.at_ok (by omega) hs' (by omega)]
    have hb := linCell_bound (grid := cropAxis a m grid) (by omega) x
    rw [hlen] at hb
    rw [linCell_crop hp hm hx, hlen, cropAxis_getD (by omega), cropAxis_getD (by omega),
      cropAxis_getD (by omega), cropAxis_getD (by omega), cropAxis_getD (by omega),
      cropAxis_getD (by omega)]
    simp only [Nat.add_assoc]
    congr 2
    obtain ⟨_, hlo, hhi⟩ := hx
    unfold extrapLH
    have h0 : (x <. grid.getD (a + 0) zero) = (x <. grid.getD 0 zero) := by
      rcases hlo with rfl | ⟨y, hy, hlt⟩
      · rfl
      · obtain ⟨hi, rfl⟩ := List.getElem?_eq_some_iff.1 hy
        rw [List.getD_eq_getElem _ _ hi, List.getD_eq_getElem _ _ (by omega), Ieee.lt_asymm hlt,
          Ieee.lt_asymm (hp 0 (a + 0) (by omega) hi hlt)]
    have h1 : (grid.getD (a + (m - 1)) zero <. x) = (grid.getD (grid.length - 1) zero <. x) := by
      rcases hhi with h | ⟨y, hy, hlt⟩
      · rw [show a + (m - 1) = grid.length - 1 by omega]
      · obtain ⟨hi, rfl⟩ := List.getElem?_eq_some_iff.1 hy
        rw [show a + (m - 1) = a + m - 1 - 0 by omega, List.getD_eq_getElem _ _ hi,
          List.getD_eq_getElem _ _ (by omega), hlt]
        by_contra hc
        have := hp (a + m - 1 - 0) (grid.length - 1) (by omega) (by omega) (by simpa using Ne.symm hc)
        rw [hlt] at this; cases this
    rw [h0, h1]
  have hnew : ∀ (gr vs : List (Ieee f)), 2 ≤ gr.length → vs.length = gr.length →
      RectilinearGrid1D.new gr vs = .ok ⟨gr, vs⟩ := fun gr vs h1 h2 => by
    unfold RectilinearGrid1D.new; rw [if_neg (by omega)]
  unfold rectilinear1DAt
  rw [hnew grid vals (by omega) hl, hnew _ _ (by omega) (by omega), Res.ok_bind, Res.ok_bind]
  cases kind <;>
    simp only [Kind1D.evalOne, Linear1D.evalOne, LinearHoldLast1D.evalOne, Left1D.evalOne,
      Right1D.evalOne, Nearest1D.evalOne, hsample]

end

section
variable {T : Type} [FloatOps T] {N : Nat}

theorem clampIdx_crop {z : Int} {dim m : Nat} (hle : m ≤ dim) (h2 : 2 ≤ m)
    (h : m = dim ∨ z + 2 ≤ m) : clampIdx z (m - 2) = clampIdx z (dim - 2) := by
  unfold clampIdx; omega

theorem linRegAxis_crop (fma : Bool) {dim m : Nat} {start step x : T} (h2 : 2 ≤ m)
    (h : KeptByFirst 0 dim m start step x) :
    linRegAxis fma m start step x = linRegAxis fma dim start step x := by
  unfold linRegAxis
  cases hz : rawCell start step x with
  | none => rfl
  | some z =>
    have := clampIdx_crop h.1 h2 (z := z) (h.2.imp_right fun h' => by simpa using h' z hz)
    simp only [this]

theorem cubRegAxis_crop {dim m : Nat} {start step x : T} (h4 : 4 ≤ m)
    (h : KeptByFirst 1 dim m start step x) :
    cubRegAxis m start step x = cubRegAxis dim start step x := by
  obtain ⟨hle, h⟩ := h
  rcases h with rfl | h
  · rfl
  unfold cubRegAxis
  cases hz : rawCell start step x with
  | none => rfl
  | some z =>
    have hz' := h z hz
    have e : clampIdx (z - 1) (m - 4) = clampIdx (z - 1) (dim - 4) := by unfold clampIdx; omega
    have e' : satRegular m z = satRegular dim z := by
      unfold satRegular; split_ifs <;> first | rfl | omega
    simp only [e, e']

/-- C120, multilinear interpolation on regular grids, in any arithmetic. The first `m k` nodes of axis
`k` are kept. The calls end in the same way, with the same result. -/
theorem C120_multilinear_regular (e : Evaluator) (he : e.Fits N) (fma : Bool)
    (dims m : Fin N → Nat) (starts steps : Fin N → T) (vals vals' : List T)
    (hG : RegularAccepted 2 dims steps vals) (hG' : RegularAccepted 2 m steps vals')
    (g : (Fin N → Nat) → T) (hg : Samples dims vals g) (hg' : Samples m vals' g)
    (x : Fin N → T) (hx : ∀ k, KeptByFirst 0 (dims k) (m k) (starts k) (steps k) (x k)) :
    multilinearRegularAt e fma m starts steps vals' x =
      multilinearRegularAt e fma dims starts steps vals x := by
  have hax := fun k => linRegAxis_crop (e.fmaLoc fma) (hG'.big k) (hx k)
  have h1 := multilinearRegularAt_eq e he fma dims starts steps vals hG.slice x
  have h2 := multilinearRegularAt_eq e he fma m starts steps vals' hG'.slice x
  rw [hG.check (by omega)] at h1
  rw [hG'.check (by omega)] at h2
  by_cases hn : ∃ k, linRegAxis (e.fmaLoc fma) (dims k) (starts k) (steps k) (x k) = none
  · obtain ⟨k, hk⟩ := hn
    rw [h1.2 ⟨k, hk⟩, h2.2 ⟨k, (hax k).trans hk⟩]
  · have : ∀ k, ∃ a, linRegAxis (e.fmaLoc fma) (dims k) (starts k) (steps k) (x k) = some a :=
      fun k => Option.ne_none_iff_exists'.1 fun hk => hn ⟨k, hk⟩
    choose a ha using this
    have ha' := fun k => (hax k).trans (ha k)
    rw [h1.1 a ha, h2.1 a ha', Res.ok_bind, Res.ok_bind]
    congr 1
    refine axisByAxis_congr (fun k i => i < m k) _ _ _ _ (fun k u u' h => ?_) fun loc h => ?_
    · have hb := linRegAxis_bound (hG'.big k) (ha' k)
      congr 1; funext p; exact h _ (by omega)
    · rw [valAt_eq hG'.len hg' loc h,
        valAt_eq hG.len hg loc fun k => lt_of_lt_of_le (h k) (hx k).1]

/-- C120, multicubic interpolation on regular grids, in any arithmetic. -/
theorem C120_multicubic_regular (hT : TotalOfUsize T) (e : Evaluator) (he : e.Fits N) (fma lin : Bool)
    (dims m : Fin N → Nat) (starts steps : Fin N → T) (vals vals' : List T)
    (hG : RegularAccepted 4 dims steps vals) (hG' : RegularAccepted 4 m steps vals')
    (g : (Fin N → Nat) → T) (hg : Samples dims vals g) (hg' : Samples m vals' g)
    (x : Fin N → T) (hx : ∀ k, KeptByFirst 1 (dims k) (m k) (starts k) (steps k) (x k)) :
    multicubicRegularAt e fma m starts steps vals' lin x =
      multicubicRegularAt e fma dims starts steps vals lin x := by
  rw [multicubicRegularAt_eq e he fma hT dims starts steps vals lin hG.slice x,
    multicubicRegularAt_eq e he fma hT m starts steps vals' lin hG'.slice x,
    hG.check (by omega), hG'.check (by omega), Res.ok_bind, Res.ok_bind]
  have hloop : axisLoop N ((0, .none, zero) : Nat × Saturation × T) (fun i => do
        cubRegAxis (← aget m i) (← aget starts i) (← aget steps i) (← aget x i)) =
      axisLoop N (0, .none, zero) (fun i => do
        cubRegAxis (← aget dims i) (← aget starts i) (← aget steps i) (← aget x i)) := by
    apply axisLoop_congr
    intro k
    simp only [aget_fin, Res.ok_bind]
    exact cubRegAxis_crop (hG'.big k) (hx k)
  rw [hloop]
  rcases axisLoop_cases N ((0, .none, zero) : Nat × Saturation × T) (fun i => do
      cubRegAxis (← aget dims i) (← aget starts i) (← aget steps i) (← aget x i)) with
    ⟨a, ha, h⟩ | ⟨_, _, _, _, h⟩ | ⟨_, _, _, h⟩
  · rw [h, Res.ok_bind, Res.ok_bind]
    congr 1
    refine axisByAxis_congr (fun k i => i < m k) _ _ _ _ (fun k u u' h => ?_) fun loc h => ?_
    · have hk := ha k
      simp only [aget_fin, Res.ok_bind] at hk
      have hb := cubRegAxis_bound (hG'.big k) ((cubRegAxis_crop (hG'.big k) (hx k)).trans hk)
      unfold cubRegRule
      congr 1; funext p; exact h _ (by omega)
    · rw [valAt_eq hG'.len hg' loc h,
        valAt_eq hG.len hg loc fun k => lt_of_lt_of_le (h k) (hx k).1]
  · rw [h, Res.err_bind, Res.err_bind]
  · rw [h, Res.panic_bind, Res.panic_bind]

/-- C120, nearest-neighbor interpolation on regular grids, in any arithmetic. -/
theorem C120_nearest_regular (fma : Bool)
    (dims m : Fin N → Nat) (starts steps : Fin N → T) (vals vals' : List T)
    (hG : RegularAccepted 2 dims steps vals) (hG' : RegularAccepted 2 m steps vals')
    (g : (Fin N → Nat) → T) (hg : Samples dims vals g) (hg' : Samples m vals' g)
    (x : Fin N → T) (hx : ∀ k, KeptByFirst 0 (dims k) (m k) (starts k) (steps k) (x k)) :
    nearestRegularAt fma m starts steps vals' x = nearestRegularAt fma dims starts steps vals x := by
  have hax : ∀ k, nearRegAxis fma (m k) (starts k) (steps k) (x k) =
      nearRegAxis fma (dims k) (starts k) (steps k) (x k) := fun k => by
    unfold nearRegAxis; rw [linRegAxis_crop fma (hG'.big k) (hx k)]
  have h1 := nearestRegularAt_eq fma dims starts steps vals hG.slice x
  have h2 := nearestRegularAt_eq fma m starts steps vals' hG'.slice x
  rw [hG.check (by omega)] at h1
  rw [hG'.check (by omega)] at h2
  by_cases hn : ∃ k, nearRegAxis fma (dims k) (starts k) (steps k) (x k) = none
  · obtain ⟨k, hk⟩ := hn
    rw [h1.2 ⟨k, hk⟩, h2.2 ⟨k, (hax k).trans hk⟩]
  · have : ∀ k, ∃ a, nearRegAxis fma (dims k) (starts k) (steps k) (x k) = some a :=
      fun k => Option.ne_none_iff_exists'.1 fun hk => hn ⟨k, hk⟩
    choose a ha using this
    have hb := fun k => nearRegAxis_bound (hG'.big k) ((hax k).trans (ha k))
    rw [h1.1 a ha, h2.1 a fun k => (hax k).trans (ha k), Res.ok_bind, Res.ok_bind,
      valAt_eq hG'.len hg' _ hb, valAt_eq hG.len hg _ fun k => lt_of_lt_of_le (hb k) (hx k).1]

end

section Examples

/-- `Samples` can be checked entry by entry. -/
theorem samples_check {T : Type} {N : Nat} {dims : Fin N → Nat} {vals : List T}
    {g : (Fin N → Nat) → T} (h : ∀ loc : (k : Fin N) → Fin (dims k),
      vals[cIndex dims fun k => (loc k).val]? = some (g fun k => (loc k).val)) :
    Samples dims vals g := fun loc hl => h fun k => ⟨loc k, hl k⟩


/-- A 4×5 table in `f64` cut down to the 2×2 values of one cell, and a result there. -/
example :
    let part := fun k => cropAxis (![1, 1] k) (![2, 2] k) (exGrids64c k)
    let vals' := ([5, 1, 7, 1 / 10] : List ℚ).map q64
    ∃ y, multilinearRectilinearAt .flat true exGrids64c exVals64c ![q64 (7 / 3), q64 (7 / 10)] = .ok y ∧
      multilinearRectilinearAt (.recursive 3) true part vals' ![q64 (7 / 3), q64 (7 / 10)] = .ok y := by
  refine C120_multilinear_rectilinear .flat (.recursive 3) (by unfold Evaluator.Fits; decide)
    (by unfold Evaluator.Fits; decide) true exGrids64c _ _
    ![1, 1] ![2, 2] ⟨by unfold IsSlice; decide, by decide, by decide, ?_⟩ ⟨by unfold IsSlice; decide, by decide, by decide, ?_⟩ ?_
    (valAt (q64 0) (fun k => (exGrids64c k).length) exVals64c) (samples_valAt _ _ _ (by decide))
    (samples_check ?_) _ ?_
  · intro k; fin_cases k <;> exact ⟨_, _, _, rfl, by decide +kernel⟩
  · intro k; fin_cases k <;> exact ⟨_, _, _, rfl, by decide +kernel⟩
  · unfold SortedAxis; decide +kernel
  · decide +kernel
  · intro k
    fin_cases k <;>
      exact ⟨by decide, .inr ⟨_, rfl, by decide +kernel⟩, .inr ⟨_, rfl, by decide +kernel⟩⟩

/-- The comparison with the first node kept has to be strict: at this node itself the whole table is
read in the cell below, and the result may be rounded differently. -/
example :
    let grids : Fin 1 → List F64 := ![[q64 0, q64 1, q64 2]]
    let vals := ([1, 1 / 10, 0] : List ℚ).map q64
    multilinearRectilinearAt .flat false (fun k => cropAxis 1 2 (grids k)) (cropAxis 1 2 vals) ![q64 1] =
        .ok (q64 (1 / 10)) ∧
      multilinearRectilinearAt .flat false grids vals ![q64 1] ≠ .ok (q64 (1 / 10)) := by
  refine ⟨?_, ?_⟩ <;> decide +kernel

/-- Multicubic: node 0 of the second axis is cut off. -/
example (lin : Bool) :
    let part := fun k => cropAxis (![0, 1] k) (![4, 4] k) (exGrids64c k)
    let vals' := ([6, -7, 16, 10, 5, 1, -2, 8, 7, 1 / 10, 4, -9, 2, -1, 12, 5 / 2] : List ℚ).map q64
    ∃ y, multicubicRectilinearAt (.recursive 8) true exGrids64c exVals64c lin
        ![q64 (-1 / 3), q64 (11 / 10)] = .ok y ∧
      multicubicRectilinearAt (.recursive 8) true part vals' lin ![q64 (-1 / 3), q64 (11 / 10)] = .ok y := by
  refine C120_multicubic_rectilinear (.recursive 8) (by unfold Evaluator.Fits; decide) true lin exGrids64c _ _
    ![0, 1] ![4, 4] ⟨by unfold IsSlice; decide, by decide, by decide, ?_⟩ ⟨by unfold IsSlice; decide, by decide, by decide, ?_⟩ ?_
    (valAt (q64 0) (fun k => (exGrids64c k).length) exVals64c) (samples_valAt _ _ _ (by decide))
    (samples_check ?_) _ ?_
  · intro k; fin_cases k <;> exact ⟨_, _, _, rfl, by decide +kernel⟩
  · intro k; fin_cases k <;> exact ⟨_, _, _, rfl, by decide +kernel⟩
  · unfold SortedAxis; decide +kernel
  · decide +kernel
  · intro k
    fin_cases k
    · exact ⟨by decide, .inl rfl, .inl rfl⟩
    · exact ⟨by decide, .inr ⟨_, rfl, by decide +kernel⟩, .inl rfl⟩

/-- 1-D: an observation at infinity, beyond the end that is kept. -/
example (kind : Kind1D) (fma : Bool) :
    let grid := ([0, 1 / 10, 3, 4] : List ℚ).map q64
    let vals := ([1, 7, 1 / 3, 9] : List ℚ).map q64
    rectilinear1DAt (kind.evalOne fma) (cropAxis 1 3 grid) (cropAxis 1 3 vals) (.inf false) =
      rectilinear1DAt (kind.evalOne fma) grid vals (.inf false) :=
  C120_rectilinear_1d kind fma _ _ 1 3 (by decide) (by unfold IsSlice; decide) (by decide)
    (by unfold SortedAxis; decide +kernel) _ ⟨by decide, .inr ⟨_, rfl, by decide +kernel⟩, .inl rfl⟩

/-- Nearest, with a NaN observation on an axis that is kept from its start. -/
example :
    let part := fun k => cropAxis (![0, 1] k) (![2, 4] k) (exGrids64c k)
    let vals' := ([6, -7, 16, 10, 5, 1, -2, 8] : List ℚ).map q64
    ∃ y, nearestRectilinearAt exGrids64c exVals64c ![.nan, q64 (7 / 10)] = .ok y ∧
      nearestRectilinearAt part vals' ![.nan, q64 (7 / 10)] = .ok y := by
  refine C120_nearest_rectilinear exGrids64c _ _
    ![0, 1] ![2, 4] ⟨by unfold IsSlice; decide, by decide, by decide, ?_⟩ ⟨by unfold IsSlice; decide, by decide, by decide, ?_⟩ ?_
    (valAt (q64 0) (fun k => (exGrids64c k).length) exVals64c) (samples_valAt _ _ _ (by decide))
    (samples_check ?_) _ ?_
  · intro k; fin_cases k <;> exact ⟨_, _, _, rfl, by decide +kernel⟩
  · intro k; fin_cases k <;> exact ⟨_, _, _, rfl, by decide +kernel⟩
  · unfold SortedAxis; decide +kernel
  · decide +kernel
  · intro k
    fin_cases k
    · exact ⟨by decide, .inl rfl, .inr ⟨_, rfl, by decide +kernel⟩⟩
    · exact ⟨by decide, .inr ⟨_, rfl, by decide +kernel⟩, .inl rfl⟩

/-- Regular grids: the first 4 of the 5 nodes of the second axis of a 4×5 table. -/
example (e : Evaluator) (he : e.Fits 2) (fma lin : Bool) :
    let dims : Fin 2 → Nat := ![4, 5]
    let m : Fin 2 → Nat := ![4, 4]
    let starts : Fin 2 → F64 := ![q64 0, q64 (-1)]
    let steps : Fin 2 → F64 := ![q64 (1 / 10), q64 2]
    let vals' := ([2, 6, -7, 16, 1 / 3, 5, 1, -2, 0, 7, 1 / 10, 4, 6, 2, -1, 12] : List ℚ).map q64
    let x : Fin 2 → F64 := ![q64 (1 / 3), q64 (14 / 10)]
    multilinearRegularAt e fma m starts steps vals' x =
        multilinearRegularAt e fma dims starts steps exVals64c x ∧
      nearestRegularAt fma m starts steps vals' x = nearestRegularAt fma dims starts steps exVals64c x ∧
      multicubicRegularAt e fma m starts steps vals' lin x =
        multicubicRegularAt e fma dims starts steps exVals64c lin x := by
  intro dims m starts steps vals' x
  have hs : Samples dims exVals64c (valAt (q64 0) dims exVals64c) := samples_valAt _ _ _ (by decide)
  have hs' : Samples m vals' (valAt (q64 0) dims exVals64c) := samples_check (by decide +kernel)
  have hA : RegularAccepted 4 dims steps exVals64c :=
    ⟨by unfold IsSlice; decide, by decide, by decide, by decide +kernel⟩
  have hA' : RegularAccepted 4 m steps vals' := ⟨by unfold IsSlice; decide, by decide, by decide, by decide +kernel⟩
  have hA2 : RegularAccepted 2 dims steps exVals64c :=
    ⟨hA.slice, hA.len, fun k => le_trans (by decide) (hA.big k), hA.pos⟩
  have hA2' : RegularAccepted 2 m steps vals' :=
    ⟨hA'.slice, hA'.len, fun k => le_trans (by decide) (hA'.big k), hA'.pos⟩
  have hcell : toIsize (floor ((x 1 -. starts 1) /. steps 1)) = some 1 := by decide +kernel
  have hx1 : ∀ k, KeptByFirst 1 (dims k) (m k) (starts k) (steps k) (x k) := by
    intro k
    fin_cases k
    · exact ⟨by decide, .inl rfl⟩
    · refine ⟨by decide, .inr fun z hz => ?_⟩
      cases hcell.symm.trans hz
      decide
  have hx0 : ∀ k, KeptByFirst 0 (dims k) (m k) (starts k) (steps k) (x k) := fun k =>
    ⟨(hx1 k).1, (hx1 k).2.imp_right fun h z hz => by have := h z hz; push_cast at this ⊢; omega⟩
  exact ⟨C120_multilinear_regular e he fma dims m starts steps _ _ hA2 hA2' _ hs hs' x hx0,
    C120_nearest_regular fma dims m starts steps _ _ hA2 hA2' _ hs hs' x hx0,
    C120_multicubic_regular (Ieee.totalOfUsize _) e he fma lin dims m starts steps _ _ hA hA' _ hs hs' x
      hx1⟩

/-- C120: at the first node kept the result may be rounded differently. The values `2^60, 1, 3` at
the nodes `0, 1, 2` give `0` at node 1, since the cell below is used; without node 0 they give `1`. -/
theorem C120_first_node :
    multilinearRectilinearAt .flat false ![[q64 0, q64 1, q64 2]] [q64 (2 ^ 60), q64 1, q64 3]
        ![q64 1] = .ok (q64 0) ∧
      multilinearRectilinearAt .flat false ![cropAxis 1 2 [q64 0, q64 1, q64 2]] [q64 1, q64 3]
        ![q64 1] = .ok (q64 1) :=
  ⟨by decide +kernel, by decide +kernel⟩

end Examples

end Interpn
