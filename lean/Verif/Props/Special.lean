import Verif.Lemmas.Accept
import Verif.Lemmas.Poison
import Verif.Props.Locality
import Verif.Props.NoPanic
import Verif.Props.Bounds
import Verif.Lemmas.OneDim
import Verif.Props.OneDim
import Verif.Spec.ExtNum
import Verif.Lemmas.TensorAlg
import Mathlib.Tactic.FinCases

/-! C54, C56: observations and stored values that are NaN or infinite, for every float type
satisfying the IEEE laws collected in `Spec/Special.lean`. -/

set_option autoImplicit false

namespace Interpn
open FloatOps

section
variable {T : Type} [FloatOps T] {N : Nat} {nan nonfinite : T → Prop}

/-! ### Regular grids: always `Err` -/

/-- Multilinear and nearest-neighbor on a regular grid: an observation with a NaN or infinite
coordinate is an `Err`, whatever the other coordinates are. -/
theorem C54_regular_err (h : SpecialValues nan nonfinite) (fma : Bool) (dims : Fin N → Nat)
    (starts steps : Fin N → T) (vals : List T) (hG : RegularAccepted 2 dims steps vals)
    (x : Fin N → T) (k : Fin N) (hk : nonfinite (x k)) :
    (∀ e : Evaluator, e.Fits N → multilinearRegularAt e fma dims starts steps vals x =
      .err "Unrepresentable coordinate value") ∧
    nearestRegularAt fma dims starts steps vals x =
      .err "Unrepresentable coordinate value" := by
  have hr : ∀ f, linRegAxis f (dims k) (starts k) (steps k) (x k) = none := fun f =>
    linRegAxis_eq_none.2 (.inl (h.rawCell hk))
  constructor
  · intro e he
    rw [(multilinearRegularAt_eq e he fma dims starts steps vals hG.slice x).2 ⟨k, hr _⟩,
      hG.check (by omega)]
    rfl
  · rw [(nearestRegularAt_eq fma dims starts steps vals hG.slice x).2
      ⟨k, by unfold nearRegAxis; rw [hr]; rfl⟩, hG.check (by omega)]
    rfl

/-- Multicubic on a regular grid: a NaN or infinite coordinate never gives a value, and it is an
`Err` unless an earlier coordinate is so far below the grid that its cell number is `isize::MIN`
(then the evaluation panics, see C07). -/
theorem C54_multicubic_regular (h : SpecialValues nan nonfinite) (hT : TotalOfUsize T)
    (e : Evaluator) (he : e.Fits N) (fma : Bool) (dims : Fin N → Nat)
    (starts steps : Fin N → T) (vals : List T) (lin : Bool)
    (hG : RegularAccepted 4 dims steps vals) (x : Fin N → T) (k : Fin N) (hk : nonfinite (x k)) :
    (∀ v, multicubicRegularAt e fma dims starts steps vals lin x ≠ .ok v) ∧
    ((∀ j < k, toIsize (floor ((x j -. starts j) /. steps j)) ≠ some isizeMin) →
      multicubicRegularAt e fma dims starts steps vals lin x =
        .err "Unrepresentable coordinate value") := by
  have hr : toIsize (floor ((x k -. starts k) /. steps k)) = none := h.rawCell hk
  have hv := goodVals_of (checkRegular_eq_ok.1 (hG.check (by omega) "")).1
    (checkRegular_eq_ok.1 (hG.check (by omega) "")).2.1 (checkRegular_eq_ok.1 (hG.check (by omega) "")).2.2.1
  have heq := multicubicRegularAt_eq e he fma hT dims starts steps vals lin hG.slice x
  rw [hG.check (by omega), Res.ok_bind] at heq
  obtain ⟨-, herr, hok⟩ := cubic_outcome hT (fun k => hv.dim_max (by omega) k) hv.min starts steps x _ _ heq
  exact ⟨fun v hv' => (hok.1 ⟨v, hv'⟩ k).1 hr, fun hj => herr.2 ⟨k, hr, hj⟩⟩

/-- One-dimensional module, regular grid: `Err` for all five interpolators. -/
theorem C54_regular_1d (h : SpecialValues nan nonfinite) (hT : TotalOfUsize T) (fma : Bool)
    (kind : Kind1D) (start step : T) (vals : List T) (hs : IsSlice vals) (hne : vals ≠ []) (x : T)
    (hx : nonfinite x) :
    regular1DAt (kind.evalOne fma) start step vals x = .err "Unrepresentable number" :=
  (C45_regular_eval fma kind hT start step vals hs hne x).1 (h.rawCell hx)

/-! ### Rectilinear grids -/

/-- Multilinear and multicubic on a rectilinear grid: a NaN coordinate gives a NaN result and an
infinite coordinate a result that is not finite, never an ordinary number and never an error. -/
theorem C54_rectilinear_propagates (h : SpecialValues nan nonfinite) (e : Evaluator)
    (he : e.Fits N) (fma : Bool) (grids : Fin N → List T) (vals : List T) (x : Fin N → T)
    (k : Fin N) :
    (RectilinearAccepted 2 grids vals →
      (nan (x k) → ∃ r, multilinearRectilinearAt e fma grids vals x = .ok r ∧ nan r) ∧
      (nonfinite (x k) → ∃ r, multilinearRectilinearAt e fma grids vals x = .ok r ∧
        nonfinite r)) ∧
    (RectilinearAccepted 4 grids vals → ∀ lin,
      (nan (x k) → ∃ r, multicubicRectilinearAt e fma grids vals lin x = .ok r ∧ nan r) ∧
      (nonfinite (x k) → ∃ r, multicubicRectilinearAt e fma grids vals lin x = .ok r ∧
        nonfinite r)) := by
  have hlin : ∀ P : T → Prop, Absorbing P → RectilinearAccepted 2 grids vals → P (x k) →
      ∃ r, multilinearRectilinearAt e fma grids vals x = .ok r ∧ P r := by
    intro P hP hG hx
    rw [multilinearRectilinearAt_eq e he fma grids vals hG.slice x, hG.check le_rfl]
    refine ⟨_, rfl, axisByAxis_absorb P _ _ (fun j f hf => ?_) k fun f => ?_⟩
    · exact hP.lerp _ (.inr (.inl (hf _)))
    · exact hP.lerp _ (.inl (hP.div _ _ (hP.sub _ _ (.inl hx))))
  have hcub : ∀ P : T → Prop, Absorbing P → RectilinearAccepted 4 grids vals → ∀ lin, P (x k) →
      ∃ r, multicubicRectilinearAt e fma grids vals lin x = .ok r ∧ P r := by
    intro P hP hG lin hx
    rw [multicubicRectilinearAt_eq e he fma grids vals lin hG.slice x, hG.check (by omega)]
    refine ⟨_, rfl, axisByAxis_absorb P _ _ (fun j f hf => ?_) k fun f => ?_⟩
    · exact hP.cubicInnerRectilinear _ _ _ (.inr fun i => hf _)
    · exact hP.cubicInnerRectilinear _ _ _ (.inl hx)
  exact ⟨fun hG => ⟨hlin nan h.nan_absorbing hG, hlin nonfinite h.nonfinite_absorbing hG⟩,
    fun hG lin => ⟨hcub nan h.nan_absorbing hG lin, hcub nonfinite h.nonfinite_absorbing hG lin⟩⟩

/-- Nearest-neighbor on a rectilinear grid: NaN coordinates are silently accepted. The result is
the stored value at a node whose index is 1 on every axis with a NaN coordinate (although NaN is
close to no node), not NaN and not an error. -/
theorem C54_nearest_rectilinear (h : SpecialValues nan nonfinite) (grids : Fin N → List T)
    (vals : List T) (hG : RectilinearAccepted 2 grids vals) (x : Fin N → T) :
    ∃ (loc : Fin N → Nat) (r : T), (∀ k, loc k < (grids k).length) ∧
      (∀ k, nan (x k) → loc k = 1) ∧
      vals[cIndex (fun k => (grids k).length) loc]? = some r ∧
      nearestRectilinearAt grids vals x = .ok r := by
  refine ⟨fun k => nearRectAxis (grids k) (x k), _, fun k => nearRectAxis_bound (hG.big k) _,
    fun k hk => ?_, samples_valAt zero _ _ hG.len _ fun k => nearRectAxis_bound (hG.big k) _, ?_⟩
  · show nearRectAxis (grids k) (x k) = 1
    unfold nearRectAxis
    rw [h.linCell hk]
    unfold nearestOffset cellPos
    rw [h.le_nan _ _ (.inl (h.nan_absorbing.div _ _ (h.nan_absorbing.sub _ _ (.inl hk))))]
    rfl
  · rw [nearestRectilinearAt_eq grids vals hG.slice x, hG.check le_rfl]
    rfl

/-- One-dimensional module, rectilinear grid, NaN observation: the two linear interpolators return
NaN; `Left1D` silently returns the first stored value, `Right1D` and `Nearest1D` the second. -/
theorem C54_rectilinear_1d (h : SpecialValues nan nonfinite) (fma : Bool) (grid : List T)
    (y0 y1 : T) (rest : List T) (hg : IsSlice grid)
    (hl : grid.length = (y0 :: y1 :: rest).length) (x : T) (hx : nan x) :
    (∀ kind, kind = .linear ∨ kind = .linearHoldLast → ∃ r,
      rectilinear1DAt (Kind1D.evalOne fma kind) grid (y0 :: y1 :: rest) x = .ok r ∧ nan r) ∧
    rectilinear1DAt (Kind1D.evalOne fma .left) grid (y0 :: y1 :: rest) x = .ok y0 ∧
    rectilinear1DAt (Kind1D.evalOne fma .right) grid (y0 :: y1 :: rest) x = .ok y1 ∧
    rectilinear1DAt (Kind1D.evalOne fma .nearest) grid (y0 :: y1 :: rest) x = .ok y1 := by
  have h2 : 2 ≤ grid.length := by rw [hl]; simp
  have hA := h.nan_absorbing
  have hat := RectilinearGrid1D.at_ok h2 hg hl.symm x
  have hex : extrapLH (grid.getD 0 zero) (grid.getD (grid.length - 1) zero) x = .inside := by
    unfold extrapLH
    rw [h.lt_nan _ _ (.inl hx), h.lt_nan _ _ (.inr hx)]
    rfl
  rw [h.linCell hx, hex] at hat
  have hlin : ∀ s : GridSample T, nan (linear1 fma s x) := by
    intro s
    unfold linear1
    simp only
    split
    · exact hA.mulAdd _ _ _ (.inr (.inl (hA.sub _ _ (.inl hx))))
    · exact hA.add _ _ (.inr (hA.mul _ _ (.inr (hA.sub _ _ (.inl hx)))))
  unfold rectilinear1DAt
  rw [(C45_rectilinear_new grid (y0 :: y1 :: rest)).1 hl h2]
  refine ⟨?_, ?_, ?_, ?_⟩
  · rintro kind (rfl | rfl)
    · exact ⟨_, by simp only [Res.ok_bind, Kind1D.evalOne, Linear1D.evalOne, hat]; rfl, hlin _⟩
    · exact ⟨_, by simp only [Res.ok_bind, Kind1D.evalOne, LinearHoldLast1D.evalOne, hat]; rfl,
        hlin _⟩
  · simp only [Res.ok_bind, Kind1D.evalOne, Left1D.evalOne, hat]; rfl
  · simp only [Res.ok_bind, Kind1D.evalOne, Right1D.evalOne, hat]; rfl
  · simp only [Res.ok_bind, Kind1D.evalOne, Nearest1D.evalOne, hat]
    rw [h.le_nan _ _ (.inl (hA.abs _ (hA.sub _ _ (.inl hx))))]
    rfl

/-! ### Bounds checks -/

/-- Regular bounds check: NaN observations have no influence on the flags. In particular an axis
whose observations are all NaN is not flagged. -/
theorem C54_bounds_regular (h : SpecialValues nan nonfinite) (dims : Fin N → Nat)
    (starts steps : Fin N → T) (obs : Fin N → List T) (atol : T) (out : List Bool)
    (hout : out.length = N) (hd : ∀ k, 1 ≤ dims k) (hT : TotalOfUsize T)
    (hsl : ∀ k, dims k ≤ usizeMax) :
    ∃ flags : Fin N → Bool,
      checkBoundsRegular (List.ofFn dims) (List.ofFn starts) (List.ofFn steps) (List.ofFn obs)
        atol out = (.ok (), List.ofFn flags) ∧
      (∀ k, (∀ x ∈ obs k, nan x) → flags k = false) ∧
      ∀ obs' : Fin N → List T, (∀ k x, ¬ nan x → (x ∈ obs k ↔ x ∈ obs' k)) →
        checkBoundsRegular (List.ofFn dims) (List.ofFn starts) (List.ofFn steps) (List.ofFn obs')
          atol out = (.ok (), List.ofFn flags) := by
  have hm : ∀ k, ∃ m, (ofUsize (dims k - 1) : Option T) = some m := fun k =>
    hT _ (by have := hsl k; omega)
  choose m hm using hm
  have hno : ∀ x lo hi : T, nan x →
      ¬ (((x -. lo) <=. (-. atol)) = true ∨ (atol <=. (x -. hi)) = true) := by
    intro x lo hi hx
    rw [h.le_nan _ _ (.inl (h.nan_absorbing.sub _ _ (.inl hx))),
      h.le_nan _ _ (.inr (h.nan_absorbing.sub _ _ (.inl hx)))]
    simp
  obtain ⟨flags, hf, hiff⟩ := C38_flags dims starts steps obs atol out hout hd m hm
  refine ⟨flags, hf, fun k hk => ?_, fun obs' ho => ?_⟩
  · rw [Bool.eq_false_iff]
    intro ht
    obtain ⟨x, hx, hp⟩ := (hiff k).1 ht
    exact hno x _ _ (hk x hx) hp
  · obtain ⟨flags', hf', hiff'⟩ := C38_flags dims starts steps obs' atol out hout hd m hm
    rw [hf']
    have : flags' = flags := by
      funext k
      rw [Bool.eq_iff_iff, hiff k, hiff' k]
      constructor
      · rintro ⟨x, hx, hp⟩
        exact ⟨x, (ho k x fun hn => hno x _ _ hn hp).2 hx, hp⟩
      · rintro ⟨x, hx, hp⟩
        exact ⟨x, (ho k x fun hn => hno x _ _ hn hp).1 hx, hp⟩
    rw [this]

/-- Rectilinear bounds check, similarly. -/
theorem C54_bounds_rectilinear (h : SpecialValues nan nonfinite) (grids obs : Fin N → List T)
    (atol : T) (out : List Bool) (hout : out.length = N) (hg : ∀ k, grids k ≠ []) :
    ∃ flags : Fin N → Bool,
      checkBoundsRectilinear (List.ofFn grids) (List.ofFn obs) atol out =
        (.ok (), List.ofFn flags) ∧
      (∀ k, (∀ x ∈ obs k, nan x) → flags k = false) ∧
      ∀ obs' : Fin N → List T, (∀ k x, ¬ nan x → (x ∈ obs k ↔ x ∈ obs' k)) →
        checkBoundsRectilinear (List.ofFn grids) (List.ofFn obs') atol out =
          (.ok (), List.ofFn flags) := by
  have hno : ∀ x lo hi : T, nan x →
      ¬ (((x -. lo) <=. (-. atol)) = true ∨ (atol <=. (x -. hi)) = true) := by
    intro x lo hi hx
    rw [h.le_nan _ _ (.inl (h.nan_absorbing.sub _ _ (.inl hx))),
      h.le_nan _ _ (.inr (h.nan_absorbing.sub _ _ (.inl hx)))]
    simp
  obtain ⟨flags, hf, hiff⟩ := C39_flags grids obs atol out hout hg
  refine ⟨flags, hf, fun k hk => ?_, fun obs' ho => ?_⟩
  · rw [Bool.eq_false_iff]
    intro ht
    obtain ⟨x, hx, hp⟩ := (hiff k).1 ht
    exact hno x _ _ (hk x hx) hp
  · obtain ⟨flags', hf', hiff'⟩ := C39_flags grids obs' atol out hout hg
    rw [hf']
    have : flags' = flags := by
      funext k
      rw [Bool.eq_iff_iff, hiff k, hiff' k]
      constructor
      · rintro ⟨x, hx, hp⟩
        exact ⟨x, (ho k x fun hn => hno x _ _ hn hp).2 hx, hp⟩
      · rintro ⟨x, hx, hp⟩
        exact ⟨x, (ho k x fun hn => hno x _ _ hn hp).1 hx, hp⟩
    rw [this]

/-! ### Stored values (C56) -/

/-- Multilinear on a regular grid: a NaN (or infinite) value at any of the two nodes per axis that
the observation's cell has makes the result NaN (not finite), and no other node matters. `z k` is the
computed cell number; outside the grid the end cell counts. -/
theorem C56_multilinear_regular {P : T → Prop} (hP : Absorbing P) (hT : TotalOfUsize T)
    (e : Evaluator) (he : e.Fits N) (fma : Bool) (dims : Fin N → Nat)
    (hd : ∀ k, 2 ≤ dims k ∧ dims k ≤ usizeMax) (starts steps : Fin N → T)
    (hpos : ∀ k, (zero <. steps k) = true) (x : Fin N → T) (z : Fin N → Int)
    (hx : ∀ k, toIsize (floor ((x k -. starts k) /. steps k)) = some (z k)) :
    ∃ o : Fin N → Nat, (∀ k, (o k : Int) = max 0 (min (z k) ((dims k : Int) - 2))) ∧
      ContaminationBlock P dims o (fun _ => 2)
      fun vals => multilinearRegularAt e fma dims starts steps vals x := by
  have h : ∀ k, ∃ a, linRegAxis (e.fmaLoc fma) (dims k) (starts k) (steps k) (x k) = some a := by
    intro k
    have := mt (linRegAxis_total hT (e.fmaLoc fma) (hd k).2 (starts k) (steps k) (x k)).1
      (fun h => by rw [show rawCell (starts k) (steps k) (x k) = some (z k) from hx k] at h; cases h)
    exact Option.ne_none_iff_exists'.1 this
  choose a ha using h
  have hb : ∀ k, (a k).1 + 2 ≤ dims k := fun k => linRegAxis_bound (hd k).1 (ha k)
  have hc : ∀ k, ((a k).1 : Int) = max 0 (min (z k) ((dims k : Int) - 2)) := by
    intro k
    have h := ha k
    unfold linRegAxis at h
    rw [show rawCell (starts k) (steps k) (x k) = some (z k) from hx k] at h
    simp only at h
    have h2 := (hd k).1
    split at h
    · cases h
    · rw [← Option.some.inj h]
      simp only [clampIdx]
      omega
  refine ⟨fun k => (a k).1, hc, hb, ?_, ?_⟩
  · intro vals vals' hs hl hv
    rw [(multilinearRegularAt_eq e he fma dims starts steps vals hs x).1 a ha,
      (multilinearRegularAt_eq e he fma dims starts steps vals' (isSlice_of_length hs hl) x).1 a ha,
      checkRegular_vals hl]
    congr 1; funext _; congr 1
    apply axisByAxis_congr (fun k i => (a k).1 ≤ i ∧ i < (a k).1 + 2)
    · intro k f f' hf; congr 1; funext p; exact hf _ ⟨by omega, by omega⟩
    · intro loc hloc; exact valAt_congr (hv loc hloc)
  · rintro vals hs hl ⟨loc, v, hloc, hv, hp⟩
    have hG : RegularAccepted 2 dims steps vals := ⟨hs, hl, fun k => (hd k).1, hpos⟩
    rw [(multilinearRegularAt_eq e he fma dims starts steps vals hs x).1 a ha, hG.check (by omega)]
    refine ⟨_, rfl, axisByAxis_poison P (fun k i => (a k).1 ≤ i ∧ i < (a k).1 + 2) _ _
      (fun k f i hi hf => ?_) loc hloc ?_⟩
    · apply hP.lerp
      right
      rcases (show i = (a k).1 ∨ i = (a k).1 + 1 by omega) with rfl | rfl
      · exact .inl hf
      · exact .inr hf
    · unfold valAt; rw [List.getD_eq_getElem?_getD, hv]; exact hp

/-- Multilinear on a rectilinear grid, similarly, for every observation; `b k` is the number of grid
entries that the search finds below the observation. -/
theorem C56_multilinear_rectilinear {P : T → Prop} (hP : Absorbing P) (e : Evaluator)
    (he : e.Fits N) (fma : Bool) (grids : Fin N → List T) (hd : ∀ k, 2 ≤ (grids k).length)
    (hord : ∀ k, SecondExceedsFirst (grids k)) (x : Fin N → T) (b : Fin N → Nat)
    (hb : ∀ k, partitionPoint (grids k) (fun y => y <. x k) = b k) :
    ∃ o : Fin N → Nat, (∀ k, o k = min (b k - 1) ((grids k).length - 2)) ∧
      ContaminationBlock P (fun k => (grids k).length) o (fun _ => 2)
      fun vals => multilinearRectilinearAt e fma grids vals x := by
  have hb : ∀ k, cellsBelow (grids k) (x k) = b k := hb
  refine ⟨fun k => linCell (grids k) (x k), fun k => by
      simp only [linCell, hb k],
    fun k => linCell_bound (hd k) _, ?_, ?_⟩
  · intro vals vals' hs hl hv
    rw [multilinearRectilinearAt_eq e he fma grids vals hs x,
      multilinearRectilinearAt_eq e he fma grids vals' (isSlice_of_length hs hl) x,
      checkRectilinear_vals hl]
    congr 1; funext _; congr 1
    apply axisByAxis_congr
      (fun k i => linCell (grids k) (x k) ≤ i ∧ i < linCell (grids k) (x k) + 2)
    · intro k f f' hf; unfold linRule; congr 1; funext p; exact hf _ ⟨by omega, by omega⟩
    · intro loc hloc; exact valAt_congr (hv loc hloc)
  · rintro vals hs hl ⟨loc, v, hloc, hv, hp⟩
    have hG : RectilinearAccepted 2 grids vals := ⟨hs, hl, hd, hord⟩
    rw [multilinearRectilinearAt_eq e he fma grids vals hs x, hG.check le_rfl]
    refine ⟨_, rfl, axisByAxis_poison P
      (fun k i => linCell (grids k) (x k) ≤ i ∧ i < linCell (grids k) (x k) + 2) _ _
      (fun k f i hi hf => ?_) loc hloc ?_⟩
    · apply hP.lerp
      right
      rcases (show i = linCell (grids k) (x k) ∨ i = linCell (grids k) (x k) + 1 by omega)
        with rfl | rfl
      · exact .inl hf
      · exact .inr hf
    · unfold valAt; rw [List.getD_eq_getElem?_getD, hv]; exact hp

/-- Multicubic on a regular grid: on an axis whose observation is in an interior cell the block has
four nodes, from the one before the cell on; in the first cell and below the grid it is the first
three nodes, in the last cell and above the grid the last three. -/
theorem C56_multicubic_regular {P : T → Prop} (hP : Absorbing P) (hT : TotalOfUsize T)
    (e : Evaluator) (he : e.Fits N) (fma : Bool) (dims : Fin N → Nat)
    (hd : ∀ k, 4 ≤ dims k ∧ dims k ≤ usizeMax) (starts steps : Fin N → T)
    (hpos : ∀ k, (zero <. steps k) = true) (lin : Bool) (x : Fin N → T) (z : Fin N → Int)
    (hx : ∀ k, toIsize (floor ((x k -. starts k) /. steps k)) = some (z k))
    (hz : ∀ k, z k ≠ isizeMin) :
    ∃ o : Fin N → Nat, (∀ k, (0 < z k ∧ z k < (dims k : Int) - 2 → (o k : Int) = z k - 1) ∧
        (z k ≤ 0 → o k = 0) ∧ ((dims k : Int) - 2 ≤ z k → o k + 3 = dims k)) ∧
      ContaminationBlock P dims o
      (fun k => if 0 < z k ∧ z k < (dims k : Int) - 2 then 4 else 3)
      fun vals => multicubicRegularAt e fma dims starts steps vals lin x := by
  have h : ∀ k, ∃ t, cubRegAxis (dims k) (starts k) (steps k) (x k) =
      .ok (clampIdx (z k - 1) (dims k - 4), satRegular (dims k) (z k), t) := by
    intro k
    obtain ⟨f, hf⟩ := hT (clampIdx (z k - 1) (dims k - 4) + 1)
      (by have := clampIdx_le (z k - 1) (dims k - 4); have := hd k; omega)
    unfold cubRegAxis
    rw [show rawCell (starts k) (steps k) (x k) = some (z k) from hx k]
    simp only [if_neg (hz k), hf]
    exact ⟨_, rfl⟩
  choose t ht using h
  have hloop : axisLoop N (0, Saturation.none, zero) (fun i => do
      cubRegAxis (← aget dims i) (← aget starts i) (← aget steps i) (← aget x i)) =
      .ok fun k => (clampIdx (z k - 1) (dims k - 4), satRegular (dims k) (z k), t k) :=
    axisLoop_ok N _ _ _ fun k => by simp only [aget_fin, Res.ok_bind]; exact ht k
  have hst : ∀ k, satRegular (dims k) (z k) = .none ↔ 0 < z k ∧ z k < (dims k : Int) - 2 := by
    intro k
    unfold satRegular
    have := hd k
    constructor
    · intro h
      split_ifs at h
      omega
    · intro h
      rw [if_neg (by omega), if_neg (by omega), if_neg (by omega), if_neg (by omega)]
  refine ⟨fun k => clampIdx (z k - 1) (dims k - 4) + stencilOff (satRegular (dims k) (z k)),
    fun k => ?_, fun k => ?_, ?_, ?_⟩
  · have h4 := (hd k).1
    refine ⟨fun h => ?_, fun h => ?_, fun h => ?_⟩
    · simp only [(hst k).2 h, stencilOff, clampIdx]
      omega
    · have : satRegular (dims k) (z k) = .outsideLow ∨ satRegular (dims k) (z k) = .insideLow := by
        unfold satRegular
        by_cases h0 : z k < 0
        · simp [h0]
        · simp [show z k = 0 by omega]
      rcases this with e | e <;> simp only [e, stencilOff, clampIdx] <;> omega
    · have : satRegular (dims k) (z k) = .outsideHigh ∨ satRegular (dims k) (z k) = .insideHigh := by
        unfold satRegular
        rw [if_neg (by omega), if_neg (by omega)]
        by_cases h0 : (dims k : Int) - 2 < z k
        · simp [h0]
        · rw [if_neg h0, if_pos (by omega)]; simp
      rcases this with e | e <;> simp only [e, stencilOff, clampIdx] <;> omega
  · have h1 := clampIdx_le (z k - 1) (dims k - 4)
    have h2 := stencil_bound (satRegular (dims k) (z k))
    have h3 := hd k
    simp only [← hst k]
    unfold stencilLen at h2
    omega
  · intro vals vals' hs hl hv
    rw [multicubicRegularAt_eq e he fma hT dims starts steps vals lin hs x,
      multicubicRegularAt_eq e he fma hT dims starts steps vals' lin (isSlice_of_length hs hl) x,
      checkRegular_vals hl, hloop]
    congr 1; funext _
    simp only [Res.ok_bind]
    congr 1
    apply axisByAxis_congr (fun k i =>
      clampIdx (z k - 1) (dims k - 4) + stencilOff (satRegular (dims k) (z k)) ≤ i ∧
      i < clampIdx (z k - 1) (dims k - 4) + stencilOff (satRegular (dims k) (z k)) +
        stencilLen (satRegular (dims k) (z k)))
    · intro k f f' hf
      exact cubicInnerRegular_congr _ _ _ fun i h1 h2 =>
        hf _ ⟨by simp only at h1 ⊢; omega, by simp only at h2 ⊢; omega⟩
    · intro loc hloc
      refine valAt_congr (hv loc fun k => ?_)
      have := hloc k
      simp only [← hst k]
      exact this
  · rintro vals hs hl ⟨loc, v, hloc, hv, hp⟩
    have hG : RegularAccepted 4 dims steps vals := ⟨hs, hl, fun k => (hd k).1, hpos⟩
    rw [multicubicRegularAt_eq e he fma hT dims starts steps vals lin hs x, hG.check (by omega),
      hloop]
    refine ⟨_, rfl, axisByAxis_poison P (fun k i =>
      clampIdx (z k - 1) (dims k - 4) + stencilOff (satRegular (dims k) (z k)) ≤ i ∧
      i < clampIdx (z k - 1) (dims k - 4) + stencilOff (satRegular (dims k) (z k)) +
        stencilLen (satRegular (dims k) (z k))) _ _ (fun k f i hi hf => ?_) loc (fun k => ?_) ?_⟩
    · have h2 := stencil_bound (satRegular (dims k) (z k))
      obtain ⟨j, rfl⟩ := Nat.exists_eq_add_of_le (show clampIdx (z k - 1) (dims k - 4) ≤ i by omega)
      exact hP.cubicInnerRegular_val _ _ _ (i := ⟨j, by omega⟩) (by simp only; omega)
        (by simp only; omega) hf
    · have := hloc k
      simp only [← hst k] at this
      exact this
    · unfold valAt; rw [List.getD_eq_getElem?_getD, hv]; exact hp

/-- Multicubic on a rectilinear grid, similarly; `b k` is the number of grid entries that the
search finds below the observation. -/
theorem C56_multicubic_rectilinear {P : T → Prop} (hP : Absorbing P) (e : Evaluator)
    (he : e.Fits N) (fma : Bool) (grids : Fin N → List T) (hd : ∀ k, 4 ≤ (grids k).length)
    (hord : ∀ k, SecondExceedsFirst (grids k)) (lin : Bool) (x : Fin N → T) (b : Fin N → Nat)
    (hb : ∀ k, partitionPoint (grids k) (fun y => y <. x k) = b k) :
    ∃ o : Fin N → Nat, (∀ k, (1 < b k ∧ b k + 1 < (grids k).length → o k = b k - 2) ∧
        (b k ≤ 1 → o k = 0) ∧ ((grids k).length ≤ b k + 1 → o k + 3 = (grids k).length)) ∧
      ContaminationBlock P (fun k => (grids k).length) o
      (fun k => if 1 < b k ∧ b k + 1 < (grids k).length then 4 else 3)
      fun vals => multicubicRectilinearAt e fma grids vals lin x := by
  have hb : ∀ k, cellsBelow (grids k) (x k) = b k := hb
  have hst : ∀ k, satRectilinear (grids k).length (cellsBelow (grids k) (x k)) = .none ↔
      1 < b k ∧ b k + 1 < (grids k).length := by
    intro k
    rw [hb k]
    unfold satRectilinear
    have h1 := hd k
    have h2 := cellsBelow_le (grids k) (x k)
    rw [hb k] at h2
    constructor
    · intro h
      split_ifs at h
      omega
    · intro h
      rw [if_neg (by omega), if_neg (by omega), if_neg (by omega), if_neg (by omega)]
  refine ⟨fun k => cubCell (grids k) (x k) +
      stencilOff (satRectilinear (grids k).length (cellsBelow (grids k) (x k))),
    fun k => ?_, fun k => ?_, ?_, ?_⟩
  · have h4 := hd k
    have h5 := cellsBelow_le (grids k) (x k)
    have hs := hst k
    rw [hb k] at hs h5
    simp only [cubCell, hb k]
    refine ⟨fun h => ?_, fun h => ?_, fun h => ?_⟩
    · simp only [hs.2 h, stencilOff]
      omega
    · have : satRectilinear (grids k).length (b k) = .outsideLow ∨
          satRectilinear (grids k).length (b k) = .insideLow := by
        unfold satRectilinear
        by_cases h0 : b k = 0
        · simp [h0]
        · simp [show b k = 1 by omega]
      rcases this with e | e <;> simp only [e, stencilOff] <;> omega
    · have : satRectilinear (grids k).length (b k) = .outsideHigh ∨
          satRectilinear (grids k).length (b k) = .insideHigh := by
        unfold satRectilinear
        rw [if_neg (by omega), if_neg (by omega)]
        by_cases h0 : b k = (grids k).length
        · simp [h0]
        · rw [if_neg h0, if_pos (by omega)]; simp
      rcases this with e | e <;> simp only [e, stencilOff] <;> omega
  · have h1 := cubCell_bound (hd k) (x k)
    have h2 := stencil_bound (satRectilinear (grids k).length (cellsBelow (grids k) (x k)))
    simp only [← hst k]
    unfold stencilLen at h2
    omega
  · intro vals vals' hs hl hv
    rw [multicubicRectilinearAt_eq e he fma grids vals lin hs x,
      multicubicRectilinearAt_eq e he fma grids vals' lin (isSlice_of_length hs hl) x,
      checkRectilinear_vals hl]
    congr 1; funext _; congr 1
    apply axisByAxis_congr (fun k i => cubCell (grids k) (x k) +
      stencilOff (satRectilinear (grids k).length (cellsBelow (grids k) (x k))) ≤ i ∧
      i < cubCell (grids k) (x k) +
        stencilOff (satRectilinear (grids k).length (cellsBelow (grids k) (x k))) +
        stencilLen (satRectilinear (grids k).length (cellsBelow (grids k) (x k))))
    · intro k f f' hf
      exact cubicInnerRectilinear_congr _ _ _ fun i h1 h2 => hf _ ⟨by omega, by omega⟩
    · intro loc hloc
      refine valAt_congr (hv loc fun k => ?_)
      have := hloc k
      simp only [← hst k]
      exact this
  · rintro vals hs hl ⟨loc, v, hloc, hv, hp⟩
    have hG : RectilinearAccepted 4 grids vals := ⟨hs, hl, hd, hord⟩
    rw [multicubicRectilinearAt_eq e he fma grids vals lin hs x, hG.check (by omega)]
    refine ⟨_, rfl, axisByAxis_poison P (fun k i => cubCell (grids k) (x k) +
      stencilOff (satRectilinear (grids k).length (cellsBelow (grids k) (x k))) ≤ i ∧
      i < cubCell (grids k) (x k) +
        stencilOff (satRectilinear (grids k).length (cellsBelow (grids k) (x k))) +
        stencilLen (satRectilinear (grids k).length (cellsBelow (grids k) (x k)))) _ _
      (fun k f i hi hf => ?_) loc (fun k => ?_) ?_⟩
    · have h2 := stencil_bound (satRectilinear (grids k).length (cellsBelow (grids k) (x k)))
      obtain ⟨j, rfl⟩ := Nat.exists_eq_add_of_le (show cubCell (grids k) (x k) ≤ i by omega)
      exact hP.cubicInnerRectilinear_val _ _ _ (i := ⟨j, by omega⟩) (by simp only; omega)
        (by simp only; omega) hf
    · have := hloc k
      simp only [← hst k] at this
      exact this
    · unfold valAt; rw [List.getD_eq_getElem?_getD, hv]; exact hp

end

section Examples
attribute [local instance] ExtNum.sampleOps
open ExtNum

/-- The concrete float type satisfies the laws. -/
example : SpecialValues (T := ExtNum ℚ) IsNan Nonfinite ∧ TotalOfUsize (ExtNum ℚ) :=
  ⟨ExtNum.special _, ExtNum.totalOfUsize _⟩

/-- A 3×2 rectilinear grid of such floats. -/
def exExtGrids : Fin 2 → List (ExtNum ℚ) := ![[fin 0, fin 1, fin 3], [fin 0, fin 2]]
/-- Its values. -/
def exExtVals : List (ExtNum ℚ) := [fin 1, fin 2, fin 3, fin 4, fin 5, fin 6]

theorem exExt_accepted : RectilinearAccepted 2 exExtGrids exExtVals := by
  refine ⟨by unfold IsSlice; decide, by decide, by decide, fun k => ?_⟩
  fin_cases k
  · exact ⟨_, _, _, rfl, by decide +kernel⟩
  · exact ⟨_, _, _, rfl, by decide +kernel⟩

/-- C54, rectilinear: NaN gives NaN (multilinear), the value at node (1, 0) (nearest); infinity is
not an error, and gives infinity or NaN. -/
example :
    RectilinearAccepted 2 exExtGrids exExtVals ∧
    multilinearRectilinearAt .flat false exExtGrids exExtVals ![nan, fin 1] = .ok nan ∧
    multilinearRectilinearAt .flat false exExtGrids exExtVals ![inf false, fin 1] =
      .ok nan ∧
    multilinearRectilinearAt .flat false exExtGrids exExtVals ![fin 1, inf false] =
      .ok (inf false) ∧
    multilinearRectilinearAt .flat false exExtGrids exExtVals ![fin (1/2), fin 1] =
      .ok (fin (5/2)) ∧
    nearestRectilinearAt exExtGrids exExtVals ![nan, fin (1/2)] = .ok (fin 3) :=
  ⟨exExt_accepted, by decide +kernel, by decide +kernel, by decide +kernel, by decide +kernel, by decide +kernel⟩

/-- C54, regular: NaN and infinity are errors. -/
example :
    let dims : Fin 2 → Nat := ![3, 2]
    let starts : Fin 2 → ExtNum ℚ := ![fin 0, fin 0]
    let steps : Fin 2 → ExtNum ℚ := ![fin 1, fin 2]
    RegularAccepted 2 dims steps exExtVals ∧
    multilinearRegularAt .flat false dims starts steps exExtVals ![fin 1, nan] =
      .err "Unrepresentable coordinate value" ∧
    nearestRegularAt false dims starts steps exExtVals ![inf true, fin 1] =
      .err "Unrepresentable coordinate value" := by
  refine ⟨⟨by unfold IsSlice; decide, by decide, by decide, by decide +kernel⟩, by decide +kernel,
    by decide +kernel⟩

/-- C54, multicubic: a regular and a rectilinear axis of four nodes. -/
example :
    let vals : List (ExtNum ℚ) := [fin 1, fin 2, fin 4, fin 8]
    RegularAccepted (N := 1) 4 ![4] ![fin (1 : ℚ)] vals ∧
    multicubicRegularAt .flat false ![4] ![fin 0] ![fin 1] vals true ![nan] =
      .err "Unrepresentable coordinate value" ∧
    multicubicRectilinearAt .flat false ![[fin 0, fin 1, fin 2, fin 4]] vals true ![nan] =
      .ok nan := by
  refine ⟨⟨by unfold IsSlice; decide, by decide, by decide, by decide +kernel⟩, by decide +kernel,
    by decide +kernel⟩

/-- C54, one-dimensional module. -/
example :
    rectilinear1DAt (Kind1D.evalOne false .linear) [fin 0, fin 1] [fin 5, fin (7 : ℚ)] nan =
      .ok nan ∧
    rectilinear1DAt (Kind1D.evalOne false .nearest) [fin 0, fin 1] [fin 5, fin (7 : ℚ)] nan =
      .ok (fin 7) ∧
    regular1DAt (Kind1D.evalOne false .linear) (fin 0) (fin 1) [fin 5, fin (7 : ℚ)] (inf false) =
      .err "Unrepresentable number" :=
  ⟨by decide +kernel, by decide +kernel, by decide +kernel⟩

/-- C54, bounds checks: of two axes, only the one with an ordinary observation outside is
flagged. -/
example :
    checkBoundsRegular [3, 2] [fin 0, fin 0] [fin 1, fin 2]
      [[nan, fin (1 : ℚ)], [nan, fin 9]] (fin (1/8)) [false, false] =
      (.ok (), [false, true]) ∧
    checkBoundsRectilinear (List.ofFn exExtGrids) [[nan, fin 1], [nan, fin 9]] (fin (1/8))
      [false, false] = (.ok (), [false, true]) :=
  ⟨by decide +kernel, by decide +kernel⟩

/-- C56: a stored NaN at node (0, 1) reaches observations in the first cell, even at a node where
its weight is zero, but not those in the second cell. -/
example :
    let vals : List (ExtNum ℚ) := [fin 1, nan, fin 3, fin 4, fin 5, fin 6]
    multilinearRectilinearAt .flat false exExtGrids vals ![fin (1/2), fin 0] = .ok nan ∧
    multilinearRectilinearAt .flat false exExtGrids vals ![fin 2, fin 1] = .ok (fin (9/2)) ∧
    multicubicRectilinearAt .flat false ![[fin 0, fin 1, fin 2, fin 4]] [fin (1 : ℚ), fin 2, fin 4, nan]
      true ![fin (1/2)] ≠ .ok nan ∧
    multicubicRectilinearAt .flat false ![[fin 0, fin 1, fin 2, fin 4]] [fin (1 : ℚ), fin 2, fin 4, nan]
      true ![fin (3/2)] = .ok nan :=
  ⟨by decide +kernel, by decide +kernel, by decide +kernel, by decide +kernel⟩

end Examples

end Interpn
