import Verif.Props.MulticubicExact

/-! C27–C29: regular and rectilinear interpolators agree on the same grid. C36: what
nearest-neighbor interpolation returns. Exact arithmetic. -/

set_option autoImplicit false
set_option linter.unusedSectionVars false

namespace Interpn

section
variable {K : Type} [Field K] [LinearOrder K] [IsStrictOrderedRing K] [FloorRing K] {N : Nat}

/-- The rectilinear grid whose nodes are those of the regular grid. -/
def uniformGrids (dims : Fin N → Nat) (starts steps : Fin N → K) (k : Fin N) : List K :=
  (List.range (dims k)).map fun i : Nat => starts k + steps k * (i : K)

theorem uniformGrids_size (dims : Fin N → Nat) (starts steps : Fin N → K) :
    (Axes.rectilinear (uniformGrids dims starts steps)).size =
      (Axes.regular dims starts steps).size := by
  funext k; simp [Axes.size, uniformGrids]

theorem uniformGrids_node (dims : Fin N → Nat) (starts steps : Fin N → K) (k : Fin N) (i : Nat)
    (hi : i < dims k) : (Axes.rectilinear (uniformGrids dims starts steps)).node k i =
      (Axes.regular dims starts steps).node k i := by
  simp only [Axes.node, uniformGrids]
  rw [List.getD_eq_getElem _ _ (by simpa using hi), List.getElem_map, List.getElem_range]

theorem uniformGrids_valid {dims : Fin N → Nat} {starts steps : Fin N → K} {m : Nat}
    {vals : List K} (h : (Axes.regular dims starts steps).Valid m vals) :
    (Axes.rectilinear (uniformGrids dims starts steps)).Valid m vals where
  slice := h.slice
  len := by rw [uniformGrids_size]; exact h.len
  big := by rw [uniformGrids_size]; exact h.big
  increasing := by
    intro k i hi
    rw [uniformGrids_size] at hi
    have hi' : i + 1 < dims k := hi
    rw [uniformGrids_node _ _ _ _ _ (by omega), uniformGrids_node _ _ _ _ _ hi']
    exact h.increasing k i hi

theorem inCell_congr {n : Nat} {p p' : Nat → K} {x : K} {c : Nat} (h : ∀ i < n, p i = p' i)
    (hc : InCell n p x c) : InCell n p' x c := by
  unfold InCell at *
  rwa [← h c (by omega), ← h (c + 1) hc.1]

theorem linPiece_congr_nodes {n : Nat} {p p' f : Nat → K} {x : K} {c : Nat}
    (h : ∀ i < n, p i = p' i) (hc : c + 1 < n) : linPiece p f c x = linPiece p' f c x := by
  unfold linPiece; rw [h c (by omega), h (c + 1) hc]

theorem nodeSlope_congr_nodes {n : Nat} {p p' f : Nat → K} {i : Nat} (h : ∀ i < n, p i = p' i)
    (hn : 4 ≤ n) (hi : i < n) : nodeSlope n p f i = nodeSlope n p' f i := by
  unfold nodeSlope
  simp only
  split
  · simp (discharger := omega) only [h]
  · split
    · simp (discharger := omega) only [h]
    · simp (discharger := omega) only [h]

theorem cubicPiece_congr_nodes {n : Nat} {p p' f : Nat → K} {x : K} {c : Nat} (lin : Bool)
    (h : ∀ i < n, p i = p' i) (hn : 4 ≤ n) (hc : c + 1 < n) :
    cubicPiece n p f lin c x = cubicPiece n p' f lin c x := by
  unfold cubicPiece
  rw [h c (by omega), h (c + 1) hc, h 0 (by omega), h (n - 1) (by omega),
    nodeSlope_congr_nodes h hn (i := c) (by omega), nodeSlope_congr_nodes h hn (i := c + 1) hc,
    nodeSlope_congr_nodes h hn (i := 0) (by omega),
    nodeSlope_congr_nodes h hn (i := n - 1) (by omega)]

theorem isNearest_congr_nodes {n : Nat} {p p' : Nat → K} {x : K} {i : Nat}
    (h : ∀ i < n, p i = p' i) (hc : IsNearest n p x i) : IsNearest n p' x i := by
  refine ⟨hc.1, fun j hj => ?_, fun j hj => ?_⟩
  · rw [← h i hc.1, ← h j hj]; exact hc.2.1 j hj
  · rw [← h i hc.1, ← h j (hj.trans hc.1)]; exact hc.2.2 j hj

/-- C27: the regular and the rectilinear multilinear interpolator agree on the same grid, at
every point the regular one can evaluate. Either may use either implementation. -/
theorem C27_agree (e e' : Evaluator) (he : e.Fits N) (he' : e'.Fits N) (fma fma' : Bool)
    (dims : Fin N → Nat) (starts steps : Fin N → K) (vals : List K)
    (hG : (Axes.regular dims starts steps).Valid 2 vals) (x : Fin N → K)
    (hx : (Axes.regular dims starts steps).Representable x) :
    ∃ y, multilinearAt e fma (.regular dims starts steps) vals x = .ok y ∧
      multilinearAt e' fma' (.rectilinear (uniformGrids dims starts steps)) vals x = .ok y := by
  obtain ⟨c, hc⟩ := hG.cells le_rfl x
  have hs := uniformGrids_size dims starts steps
  have hp : ∀ k, ∀ i < (Axes.regular dims starts steps).size k,
      (Axes.regular dims starts steps).node k i =
        (Axes.rectilinear (uniformGrids dims starts steps)).node k i :=
    fun k i hi => (uniformGrids_node dims starts steps k i hi).symm
  have hg := samples_valAt (0 : K) _ _ hG.len
  refine ⟨_, multilinearAt_eq e he fma _ vals hG _ hg x hx c hc, ?_⟩
  rw [multilinearAt_eq e' he' fma' _ vals (uniformGrids_valid hG) _ (by rw [hs]; exact hg) x trivial c
    (by rw [hs]; exact fun k => inCell_congr (hp k) (hc k))]
  congr 2
  funext k f
  exact (linPiece_congr_nodes (hp k) (hc k).1).symm

/-- C28: as C27 for the multicubic interpolators. -/
theorem C28_agree (e e' : Evaluator) (he : e.Fits N) (he' : e'.Fits N) (fma fma' : Bool)
    (dims : Fin N → Nat) (starts steps : Fin N → K) (vals : List K) (lin : Bool)
    (hG : (Axes.regular dims starts steps).Valid 4 vals) (x : Fin N → K)
    (hx : (Axes.regular dims starts steps).RepresentableCubic x) :
    ∃ y, multicubicAt e fma (.regular dims starts steps) vals lin x = .ok y ∧
      multicubicAt e' fma' (.rectilinear (uniformGrids dims starts steps)) vals lin x = .ok y := by
  obtain ⟨c, hc⟩ := hG.cells (by omega) x
  have hs := uniformGrids_size dims starts steps
  have hp : ∀ k, ∀ i < (Axes.regular dims starts steps).size k,
      (Axes.regular dims starts steps).node k i =
        (Axes.rectilinear (uniformGrids dims starts steps)).node k i :=
    fun k i hi => (uniformGrids_node dims starts steps k i hi).symm
  have hg := samples_valAt (0 : K) _ _ hG.len
  refine ⟨_, multicubicAt_eq e he fma _ vals lin hG _ hg x hx c hc, ?_⟩
  rw [multicubicAt_eq e' he' fma' _ vals lin (uniformGrids_valid hG) _ (by rw [hs]; exact hg) x
    trivial c (by rw [hs]; exact fun k => inCell_congr (hp k) (hc k))]
  congr 2
  funext k f
  rw [hs]
  exact (cubicPiece_congr_nodes lin (hp k) (hG.big k) (hc k).1).symm

/-- C29: as C27 for the nearest-neighbor interpolators. -/
theorem C29_agree (fma fma' : Bool)
    (dims : Fin N → Nat) (starts steps : Fin N → K) (vals : List K)
    (hG : (Axes.regular dims starts steps).Valid 2 vals) (x : Fin N → K)
    (hx : (Axes.regular dims starts steps).Representable x) :
    ∃ y, nearestAt fma (.regular dims starts steps) vals x = .ok y ∧
      nearestAt fma' (.rectilinear (uniformGrids dims starts steps)) vals x = .ok y := by
  have hs := uniformGrids_size dims starts steps
  have hp : ∀ k, ∀ i < (Axes.regular dims starts steps).size k,
      (Axes.regular dims starts steps).node k i =
        (Axes.rectilinear (uniformGrids dims starts steps)).node k i :=
    fun k i hi => (uniformGrids_node dims starts steps k i hi).symm
  have hg := samples_valAt (0 : K) _ _ hG.len
  have := fun k => exists_isNearest (hG.big k) (hG.incr k) (x k)
  choose loc hl using this
  refine ⟨_, nearestAt_eq fma _ vals hG _ hg x hx loc hl, ?_⟩
  exact nearestAt_eq fma' _ vals (uniformGrids_valid hG) _ (by rw [hs]; exact hg) x trivial loc
    (by rw [hs]; exact fun k => isNearest_congr_nodes (hp k) (hl k))

/-- C36: the result is the value stored at the node that on every axis is closest to the
observation, the lowest index on ties (`IsNearest`). -/
theorem C36_nearest (fma : Bool) (G : Axes K N) (vals : List K) (hG : G.Valid 2 vals)
    (g : (Fin N → Nat) → K) (hg : Samples G.size vals g) (x : Fin N → K)
    (hx : G.Representable x) (loc : Fin N → Nat)
    (hl : ∀ k, IsNearest (G.size k) (G.node k) (x k) (loc k)) :
    nearestAt fma G vals x = .ok (g loc) :=
  nearestAt_eq fma G vals hG g hg x hx loc hl

/-- C36: every observation has exactly one such node. -/
theorem C36_unique (G : Axes K N) (vals : List K) (hG : G.Valid 2 vals) (x : Fin N → K) :
    ∃! loc : Fin N → Nat, ∀ k, IsNearest (G.size k) (G.node k) (x k) (loc k) := by
  have := fun k => exists_isNearest (hG.big k) (hG.incr k) (x k)
  choose loc hl using this
  exact ⟨loc, hl, fun loc' hl' => funext fun k => (hl' k).unique (hl k)⟩

/-- C36: outside the grid it is the edge node. -/
theorem C36_outside (G : Axes K N) (vals : List K) (hG : G.Valid 2 vals) (k : Fin N) (y : K) :
    (y ≤ G.node k 0 → IsNearest (G.size k) (G.node k) y 0) ∧
      (G.node k (G.size k - 1) ≤ y → IsNearest (G.size k) (G.node k) y (G.size k - 1)) := by
  have hn := hG.big k
  have hi := hG.incr k
  constructor
  · intro h
    refine ⟨by omega, fun j hj => ?_, fun j hj => absurd hj (by omega)⟩
    have := hi.le (Nat.zero_le j) hj
    rw [abs_of_nonpos (by linarith), abs_of_nonpos (by linarith)]; linarith
  · intro h
    refine ⟨by omega, fun j hj => ?_, fun j hj => ?_⟩
    · have := hi.le (show j ≤ G.size k - 1 by omega) (by omega)
      rw [abs_of_nonneg (by linarith), abs_of_nonneg (by linarith)]; linarith
    · have := hi.lt hj (by omega)
      rw [abs_of_nonneg (by linarith), abs_of_nonneg (by linarith)]; linarith

/-- C36: in between, it is the lower node of the cell up to and including the midpoint, and the
upper node above it. -/
theorem C36_between (G : Axes K N) (vals : List K) (hG : G.Valid 2 vals) (k : Fin N) (y : K)
    (i : Nat) (hi : i + 1 < G.size k) (h0 : G.node k i ≤ y) (h1 : y ≤ G.node k (i + 1)) :
    (y ≤ (G.node k i + G.node k (i + 1)) / 2 → IsNearest (G.size k) (G.node k) y i) ∧
      ((G.node k i + G.node k (i + 1)) / 2 < y → IsNearest (G.size k) (G.node k) y (i + 1)) := by
  have hn := hG.incr k
  constructor
  · intro h
    have h : y * 2 ≤ G.node k i + G.node k (i + 1) := (le_div_iff₀ two_pos).1 h
    refine ⟨by omega, fun j hj => ?_, fun j hj => ?_⟩
    · rw [abs_of_nonneg (by linarith : 0 ≤ y - G.node k i)]
      rcases Nat.lt_or_ge i j with hij | hij
      · have := hn.le (show i + 1 ≤ j from hij) hj
        rw [abs_of_nonpos (by linarith)]; linarith
      · have := hn.le hij (by omega)
        rw [abs_of_nonneg (by linarith)]; linarith
    · have := hn.lt hj (by omega)
      rw [abs_of_nonneg (by linarith), abs_of_nonneg (by linarith)]; linarith
  · intro h
    have h : G.node k i + G.node k (i + 1) < y * 2 := (div_lt_iff₀ two_pos).1 h
    refine ⟨hi, fun j hj => ?_, fun j hj => ?_⟩
    · rw [abs_of_nonpos (by linarith : y - G.node k (i + 1) ≤ 0)]
      rcases Nat.lt_or_ge i j with hij | hij
      · have := hn.le (show i + 1 ≤ j from hij) hj
        rw [abs_of_nonpos (by linarith)]; linarith
      · have := hn.le hij (by omega)
        rw [abs_of_nonneg (by linarith)]; linarith
    · have := hn.le (show j ≤ i by omega) (by omega)
      rw [abs_of_nonpos (by linarith), abs_of_nonneg (by linarith)]; linarith

end

section Examples

/-- Points where C27–C29 apply; the second is a node, where the two kinds select different
cells, the third is outside the grid. -/
example :
    exRegular.Valid 2 exVals ∧ exRegular.Representable ![3/2, 2] ∧
      exRegular.Representable ![1, 2] ∧ exRegular.Representable ![-4, 7] ∧
      multilinearAt .flat false (.rectilinear (uniformGrids ![3, 2] ![0, 1] ![1, 2])) exVals
        ![3/2, 2] = multilinearAt .flat false exRegular exVals ![3/2, 2] ∧
      multilinearAt .flat false (.rectilinear (uniformGrids ![3, 2] ![0, 1] ![1, 2])) exVals
        ![1, 2] = multilinearAt .flat false exRegular exVals ![1, 2] ∧
      nearestAt false (.rectilinear (uniformGrids ![3, 2] ![0, 1] ![1, 2])) exVals
        ![3/2, 2] = .ok 6 ∧
      nearestAt false exRegular exVals ![3/2, 2] = .ok 6 := by
  refine ⟨valid_of_check ?_, ?_⟩ <;> decide +kernel

/-- A cubic case for C28. -/
example :
    let vals : List ℚ := [1, 0, 2, 5, -1]
    (Axes.regular ![5] ![0] ![2]).Valid 4 vals ∧
      (Axes.regular ![5] ![0] ![2]).RepresentableCubic ![(-3 : ℚ)] ∧
      multicubicAt .flat false (.regular ![5] ![0] ![2]) vals false ![-3] =
        multicubicAt .flat false (.rectilinear (uniformGrids ![5] ![0] ![2])) vals false ![-3] := by
  refine ⟨valid_of_check ?_, ?_⟩ <;> decide +kernel

/-- C36 on a tie in the first axis and an observation above the second axis. -/
example :
    exRectilinear.Valid 2 exVals ∧
      (∀ k, IsNearest (exRectilinear.size k) (exRectilinear.node k) (![5/2, 9] k) (![1, 1] k)) ∧
      nearestAt false exRectilinear exVals ![5/2, 9] = .ok 16 := by
  refine ⟨valid_of_check ?_, ?_⟩ <;> decide +kernel

end Examples

end Interpn
