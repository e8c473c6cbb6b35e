import Verif.Lemmas.Symmetry
import Verif.Props.Linearity

/-! C25: independence of the coordinate origin and unit. C26: independence of the order of the
axes. C55: mirror symmetry. Exact arithmetic, both grid kinds (`Axes`) and both implementations
(`Evaluator`). -/

set_option autoImplicit false
set_option linter.unusedSectionVars false

namespace Interpn

section
variable {K : Type} [Field K] [LinearOrder K] [IsStrictOrderedRing K] [FloorRing K] {N : Nat}

/-! ### Origin and unit -/

/-- The grid in the coordinates `x' = s * x + d`, axis by axis. -/
def Axes.rescale (s d : Fin N → K) : Axes K N → Axes K N
  | .regular dims starts steps =>
    .regular dims (fun k => s k * starts k + d k) (fun k => s k * steps k)
  | .rectilinear grids => .rectilinear fun k => (grids k).map fun p => s k * p + d k

theorem Axes.rescale_size (s d : Fin N → K) (G : Axes K N) : (G.rescale s d).size = G.size := by
  cases G with
  | regular => rfl
  | rectilinear grids => funext k; simp [Axes.rescale, Axes.size]

theorem Axes.rescale_node (s d : Fin N → K) (G : Axes K N) (k : Fin N) (i : Nat)
    (hi : i < G.size k) : (G.rescale s d).node k i = s k * G.node k i + d k := by
  cases G with
  | regular => simp only [Axes.rescale, Axes.node]; ring
  | rectilinear grids =>
    have hi' : i < (grids k).length := hi
    simp only [Axes.rescale, Axes.node]
    rw [List.getD_eq_getElem _ _ (by simpa using hi'), List.getD_eq_getElem _ _ hi',
      List.getElem_map]

theorem rescale_valid {G : Axes K N} {m : Nat} {vals : List K} (hG : G.Valid m vals)
    {s d : Fin N → K} (hs : ∀ k, 0 < s k) : (G.rescale s d).Valid m vals where
  slice := hG.slice
  len := by rw [Axes.rescale_size]; exact hG.len
  big := by rw [Axes.rescale_size]; exact hG.big
  increasing := by
    intro k i hi
    rw [Axes.rescale_size] at hi
    rw [Axes.rescale_node _ _ _ _ _ (by omega), Axes.rescale_node _ _ _ _ _ hi]
    have := mul_lt_mul_of_pos_left (hG.increasing k i hi) (hs k)
    linarith

theorem rescale_fits {G : Axes K N} {s d : Fin N → K} (hs : ∀ k, 0 < s k) (lo : Int)
    (x : Fin N → K) : (G.rescale s d).StepsFit lo (fun k => s k * x k + d k) ↔ G.StepsFit lo x := by
  cases G with
  | rectilinear => exact Iff.rfl
  | regular dims starts steps =>
    have : ∀ k, (s k * x k + d k - (s k * starts k + d k)) / (s k * steps k) =
        (x k - starts k) / steps k := fun k => by
      rw [show s k * x k + d k - (s k * starts k + d k) = s k * (x k - starts k) by ring,
        mul_div_mul_left _ _ (hs k).ne']
    simp only [Axes.rescale, Axes.StepsFit, this]

/-- C25: shifting and positively scaling the axes, grid and observations alike, does not change
the outcome of multilinear interpolation. -/
theorem C25_multilinear (e : Evaluator) (he : e.Fits N) (fma : Bool) (G : Axes K N)
    (vals : List K) (hG : G.Valid 2 vals) (s d : Fin N → K) (hs : ∀ k, 0 < s k)
    (x : Fin N → K) :
    multilinearAt e fma (G.rescale s d) vals (fun k => s k * x k + d k) =
      multilinearAt e fma G vals x := by
  have hG' := rescale_valid hG (s := s) (d := d) hs
  by_cases hx : G.Representable x
  · obtain ⟨c, hc⟩ := hG.cells le_rfl x
    have hg := samples_valAt (0 : K) _ _ hG.len
    rw [multilinearAt_eq e he fma G vals hG _ hg x hx c hc,
      multilinearAt_eq e he fma _ vals hG' _ (by rw [Axes.rescale_size]; exact hg) _
        ((rescale_fits hs _ x).2 hx) c
        (fun k => by
          rw [Axes.rescale_size]
          exact inCell_rescale (hs k) (Axes.rescale_node s d G k) (hc k))]
    congr 2
    funext k f
    exact linPiece_rescale (hs k) (Axes.rescale_node s d G k) (hc k).1
  · rw [multilinearAt_err e he fma G vals hG x hx, multilinearAt_err e he fma _ vals hG' _
      fun h => hx ((rescale_fits hs _ x).1 h)]

section
attribute [local instance] exactOps

theorem cubRegAxis_rescale (dim : Nat) (start step x : K) {s d : K} (hs : 0 < s) :
    cubRegAxis dim (s * start + d) (s * step) (s * x + d) = cubRegAxis dim start step x := by
  have h : (s * x + d - (s * start + d)) / (s * step) = (x - start) / step := by
    rw [show s * x + d - (s * start + d) = s * (x - start) by ring, mul_div_mul_left _ _ hs.ne']
  have h' : ∀ f : K, (s * x + d - (s * start + d + s * step * f)) / (s * step) =
      (x - (start + step * f)) / step := fun f => by
    rw [show s * x + d - (s * start + d + s * step * f) = s * (x - (start + step * f)) by ring,
      mul_div_mul_left _ _ hs.ne']
  unfold cubRegAxis
  rw [rawCell_exact, rawCell_exact]
  simp only [h]
  split
  · rfl
  · split
    · rfl
    · split
      · rfl
      · next f _ => exact congrArg (fun t => Res.ok (_, _, t)) (h' f)

theorem multicubicRegularAt_rescale (e : Evaluator) (he : e.Fits N) (fma : Bool)
    (dims : Fin N → Nat) (starts steps : Fin N → K) (vals : List K) (lin : Bool)
    (hG : (Axes.regular dims starts steps).Valid 4 vals) {s d : Fin N → K} (hs : ∀ k, 0 < s k)
    (hG' : (Axes.regular dims (fun k => s k * starts k + d k) (fun k => s k * steps k)).Valid 4 vals)
    (x : Fin N → K) :
    multicubicRegularAt e fma dims (fun k => s k * starts k + d k) (fun k => s k * steps k) vals lin
      (fun k => s k * x k + d k) = multicubicRegularAt e fma dims starts steps vals lin x := by
  rw [multicubicRegularAt_eq e he fma totalOfUsize_exact _ _ _ vals lin hG.slice,
    multicubicRegularAt_eq e he fma totalOfUsize_exact _ _ _ vals lin hG.slice,
    hG.checkRegular (by omega), hG'.checkRegular (by omega)]
  congr 1
  funext _
  congr 1
  apply axisLoop_congr
  intro k
  simp only [aget_fin, Res.ok_bind]
  exact cubRegAxis_rescale (dims k) (starts k) (steps k) (x k) (hs k)

end

/-- C25: shifting and positively scaling the axes does not change the outcome of multicubic
interpolation. -/
theorem C25_multicubic (e : Evaluator) (he : e.Fits N) (fma : Bool) (G : Axes K N)
    (vals : List K) (lin : Bool) (hG : G.Valid 4 vals) (s d : Fin N → K) (hs : ∀ k, 0 < s k)
    (x : Fin N → K) :
    multicubicAt e fma (G.rescale s d) vals lin (fun k => s k * x k + d k) =
      multicubicAt e fma G vals lin x := by
  have hG' := rescale_valid hG (s := s) (d := d) hs
  by_cases hx : G.RepresentableCubic x
  · obtain ⟨c, hc⟩ := hG.cells (by omega) x
    have hg := samples_valAt (0 : K) _ _ hG.len
    rw [multicubicAt_eq e he fma G vals lin hG _ hg x hx c hc,
      multicubicAt_eq e he fma _ vals lin hG' _ (by rw [Axes.rescale_size]; exact hg) _
        ((rescale_fits hs _ x).2 hx) c
        (fun k => by
          rw [Axes.rescale_size]
          exact inCell_rescale (hs k) (Axes.rescale_node s d G k) (hc k))]
    congr 2
    funext k f
    rw [Axes.rescale_size]
    exact cubicPiece_rescale (hs k) (Axes.rescale_node s d G k) (hG.big k) lin (hc k).1
  · cases G with
    | rectilinear => exact absurd trivial hx
    | regular dims starts steps =>
      exact multicubicRegularAt_rescale e he fma dims starts steps vals lin hG hs hG' x

/-- C25: shifting and positively scaling the axes does not change the outcome of
nearest-neighbor interpolation. -/
theorem C25_nearest (fma : Bool) (G : Axes K N) (vals : List K) (hG : G.Valid 2 vals)
    (s d : Fin N → K) (hs : ∀ k, 0 < s k) (x : Fin N → K) :
    nearestAt fma (G.rescale s d) vals (fun k => s k * x k + d k) = nearestAt fma G vals x := by
  have hG' := rescale_valid hG (s := s) (d := d) hs
  by_cases hx : G.Representable x
  · have := fun k => exists_isNearest (hG.big k) (hG.incr k) (x k)
    choose loc hl using this
    have hg := samples_valAt (0 : K) _ _ hG.len
    rw [nearestAt_eq fma G vals hG _ hg x hx loc hl,
      nearestAt_eq fma _ vals hG' _ (by rw [Axes.rescale_size]; exact hg) _
        ((rescale_fits hs _ x).2 hx) loc
        (fun k => by
          rw [Axes.rescale_size]
          exact isNearest_rescale (hs k) (Axes.rescale_node s d G k) (hl k))]
  · rw [nearestAt_err fma G vals hG x hx, nearestAt_err fma _ vals hG' _
      fun h => hx ((rescale_fits hs _ x).1 h)]

/-! ### Order of the axes -/

/-- The grid whose axis `k` is axis `σ k` of `G`. -/
def Axes.permute (σ : Equiv.Perm (Fin N)) : Axes K N → Axes K N
  | .regular dims starts steps =>
    .regular (fun k => dims (σ k)) (fun k => starts (σ k)) (fun k => steps (σ k))
  | .rectilinear grids => .rectilinear fun k => grids (σ k)

/-- `vals'` is the array `vals` of shape `dims` with its axes permuted likewise: the entry of
node `loc` moves to the node with index `loc (σ k)` on axis `k`. -/
def Transposed (σ : Equiv.Perm (Fin N)) (dims : Fin N → Nat) (vals vals' : List K) : Prop :=
  vals'.length = vals.length ∧
  ∀ loc : Fin N → Nat, (∀ k, loc k < dims k) →
    vals'[cIndex (fun k => dims (σ k)) (fun k => loc (σ k))]? = vals[cIndex dims loc]?

theorem Axes.permute_size (σ : Equiv.Perm (Fin N)) (G : Axes K N) :
    (G.permute σ).size = fun k => G.size (σ k) := by cases G <;> rfl

theorem Axes.permute_node (σ : Equiv.Perm (Fin N)) (G : Axes K N) (k : Fin N) :
    (G.permute σ).node k = G.node (σ k) := by cases G <;> rfl

theorem permute_valid {G : Axes K N} {m : Nat} {vals vals' : List K} (hG : G.Valid m vals)
    {σ : Equiv.Perm (Fin N)} (ht : Transposed σ G.size vals vals') :
    (G.permute σ).Valid m vals' where
  slice := by have := hG.slice; unfold IsSlice at *; rw [ht.1]; exact this
  len := by rw [Axes.permute_size, ht.1, hG.len]; exact (Equiv.prod_comp σ G.size).symm
  big := by rw [Axes.permute_size]; exact fun k => hG.big (σ k)
  increasing := by
    intro k i hi
    rw [Axes.permute_size] at hi
    rw [Axes.permute_node]
    exact hG.increasing (σ k) i hi

theorem permute_samples {dims : Fin N → Nat} {vals vals' : List K} {g : (Fin N → Nat) → K}
    (hg : Samples dims vals g) {σ : Equiv.Perm (Fin N)} (ht : Transposed σ dims vals vals') :
    Samples (fun k => dims (σ k)) vals' (fun loc => g fun k => loc (σ.symm k)) := by
  intro loc hl
  have hl' : ∀ k, loc (σ.symm k) < dims k := fun k => by
    have := hl (σ.symm k); simpa only [Equiv.apply_symm_apply] using this
  have := ht.2 (fun k => loc (σ.symm k)) hl'
  simp only [Equiv.symm_apply_apply] at this
  rw [this]
  exact hg _ hl'

theorem permute_fits {G : Axes K N} (σ : Equiv.Perm (Fin N)) {lo : Int} {x : Fin N → K}
    (h : G.StepsFit lo x) : (G.permute σ).StepsFit lo fun k => x (σ k) := by
  cases G with
  | rectilinear => exact trivial
  | regular => exact fun k => h (σ k)

theorem permute_fits_iff {G : Axes K N} (σ : Equiv.Perm (Fin N)) {lo : Int} {x : Fin N → K} :
    (G.permute σ).StepsFit lo (fun k => x (σ k)) ↔ G.StepsFit lo x := by
  refine ⟨fun h => ?_, permute_fits σ⟩
  cases G with
  | rectilinear => exact trivial
  | regular dims starts steps =>
    intro k
    have := h (σ.symm k)
    simpa only [Equiv.apply_symm_apply] using this

/-- C26: permuting the axes, with the value array transposed accordingly, does not change the
outcome of multilinear interpolation. -/
theorem C26_multilinear (e : Evaluator) (he : e.Fits N) (fma : Bool) (G : Axes K N)
    (vals vals' : List K) (hG : G.Valid 2 vals) (σ : Equiv.Perm (Fin N))
    (ht : Transposed σ G.size vals vals') (x : Fin N → K) :
    multilinearAt e fma (G.permute σ) vals' (fun k => x (σ k)) = multilinearAt e fma G vals x := by
  by_cases hx : G.Representable x
  · obtain ⟨c, hc⟩ := hG.cells le_rfl x
    have hg := samples_valAt (0 : K) _ _ hG.len
    rw [multilinearAt_eq e he fma G vals hG _ hg x hx c hc,
      multilinearAt_eq e he fma _ vals' (permute_valid hG ht) _
        (by rw [Axes.permute_size]; exact permute_samples hg ht) _ (permute_fits σ hx)
        (fun k => c (σ k)) (fun k => by rw [Axes.permute_size, Axes.permute_node]; exact hc (σ k))]
    simp only [Axes.permute_node]
    rw [axisByAxis_perm (fun k f => linPiece (G.node k) f (c k) (x k))
      (fun k => linPiece_linear (hc k).1)]
  · rw [multilinearAt_err e he fma G vals hG x hx, multilinearAt_err e he fma _ vals'
      (permute_valid hG ht) _ fun h => hx ((permute_fits_iff σ).1 h)]

/-- C26: permuting the axes does not change the results of multicubic interpolation. -/
theorem C26_multicubic (e : Evaluator) (he : e.Fits N) (fma : Bool) (G : Axes K N)
    (vals vals' : List K) (lin : Bool) (hG : G.Valid 4 vals) (σ : Equiv.Perm (Fin N))
    (ht : Transposed σ G.size vals vals') (x : Fin N → K) (hx : G.RepresentableCubic x) :
    ∃ y, multicubicAt e fma G vals lin x = .ok y ∧
      multicubicAt e fma (G.permute σ) vals' lin (fun k => x (σ k)) = .ok y := by
  obtain ⟨c, hc⟩ := hG.cells (by omega) x
  have hg := samples_valAt (0 : K) _ _ hG.len
  refine ⟨_, multicubicAt_eq e he fma G vals lin hG _ hg x hx c hc, ?_⟩
  rw [multicubicAt_eq e he fma _ vals' lin (permute_valid hG ht) _
    (by rw [Axes.permute_size]; exact permute_samples hg ht) _ (permute_fits σ hx)
    (fun k => c (σ k)) (fun k => by rw [Axes.permute_size, Axes.permute_node]; exact hc (σ k))]
  simp only [Axes.permute_node, Axes.permute_size]
  rw [axisByAxis_perm (fun k f => cubicPiece (G.size k) (G.node k) f lin (c k) (x k))
    (fun k => cubicPiece_linear (hG.big k) lin (hc k).1)]

/-- C26: permuting the axes does not change the outcome of nearest-neighbor interpolation. -/
theorem C26_nearest (fma : Bool) (G : Axes K N)
    (vals vals' : List K) (hG : G.Valid 2 vals) (σ : Equiv.Perm (Fin N))
    (ht : Transposed σ G.size vals vals') (x : Fin N → K) :
    nearestAt fma (G.permute σ) vals' (fun k => x (σ k)) = nearestAt fma G vals x := by
  by_cases hx : G.Representable x
  · have := fun k => exists_isNearest (hG.big k) (hG.incr k) (x k)
    choose loc hl using this
    have hg := samples_valAt (0 : K) _ _ hG.len
    rw [nearestAt_eq fma G vals hG _ hg x hx loc hl,
      nearestAt_eq fma _ vals' (permute_valid hG ht) _
        (by rw [Axes.permute_size]; exact permute_samples hg ht) _ (permute_fits σ hx)
        (fun k => loc (σ k)) (fun k => by rw [Axes.permute_size, Axes.permute_node]; exact hl (σ k))]
    simp only [Equiv.apply_symm_apply]
  · rw [nearestAt_err fma G vals hG x hx, nearestAt_err fma _ vals'
      (permute_valid hG ht) _ fun h => hx ((permute_fits_iff σ).1 h)]

/-! ### Mirroring -/

/-- The mirror image of the axes `k` with `flip k`: coordinates negated, nodes in reverse order. -/
def Axes.mirror (flip : Fin N → Bool) : Axes K N → Axes K N
  | .regular dims starts steps =>
    .regular dims
      (fun k => if flip k then -(starts k + steps k * ((dims k - 1 : Nat) : K)) else starts k) steps
  | .rectilinear grids =>
    .rectilinear fun k => if flip k then ((grids k).map fun p => -p).reverse else grids k

/-- Node indices counted from the other end on the flipped axes. -/
def flipIndex (flip : Fin N → Bool) (dims loc : Fin N → Nat) (k : Fin N) : Nat :=
  if flip k then dims k - 1 - loc k else loc k

/-- `vals'` is the array `vals` of shape `dims` reversed along the flipped axes. -/
def Mirrored (flip : Fin N → Bool) (dims : Fin N → Nat) (vals vals' : List K) : Prop :=
  vals'.length = vals.length ∧
  ∀ loc : Fin N → Nat, (∀ k, loc k < dims k) →
    vals'[cIndex dims (flipIndex flip dims loc)]? = vals[cIndex dims loc]?

/-- The mirror image of a point. -/
def flipPoint (flip : Fin N → Bool) (x : Fin N → K) (k : Fin N) : K :=
  if flip k then -x k else x k

theorem Axes.mirror_size (flip : Fin N → Bool) (G : Axes K N) :
    (G.mirror flip).size = G.size := by
  cases G with
  | regular => rfl
  | rectilinear grids =>
    funext k; simp only [Axes.mirror, Axes.size]; split <;> simp

theorem Axes.mirror_node_keep (flip : Fin N → Bool) (G : Axes K N) (k : Fin N)
    (h : flip k = false) : (G.mirror flip).node k = G.node k := by
  cases G <;> (funext i; simp [Axes.mirror, Axes.node, h])

theorem Axes.mirror_node_flip (flip : Fin N → Bool) (G : Axes K N) (k : Fin N)
    (h : flip k = true) (i : Nat) (hi : i < G.size k) :
    (G.mirror flip).node k i = -G.node k (G.size k - 1 - i) := by
  cases G with
  | regular dims starts steps =>
    have hi' : i < dims k := hi
    simp only [Axes.mirror, Axes.node, Axes.size, h, if_true]
    rw [show ((dims k - 1 - i : Nat) : K) = ((dims k - 1 : Nat) : K) - (i : K) from
      Nat.cast_sub (by omega)]
    ring
  | rectilinear grids =>
    have hi' : i < (grids k).length := hi
    simp only [Axes.mirror, Axes.node, Axes.size, h, if_true]
    rw [List.getD_eq_getElem _ _ (by simpa using hi'), List.getD_eq_getElem _ _ (by omega),
      List.getElem_reverse, List.getElem_map]
    simp only [List.length_map]

theorem mirror_valid {G : Axes K N} {m : Nat} {vals vals' : List K} (hG : G.Valid m vals)
    {flip : Fin N → Bool} (hm : Mirrored flip G.size vals vals') :
    (G.mirror flip).Valid m vals' where
  slice := by have := hG.slice; unfold IsSlice at *; rw [hm.1]; exact this
  len := by rw [Axes.mirror_size, hm.1, hG.len]
  big := by rw [Axes.mirror_size]; exact hG.big
  increasing := by
    intro k i hi
    rw [Axes.mirror_size] at hi
    cases h : flip k with
    | false => rw [Axes.mirror_node_keep _ _ _ h]; exact hG.increasing k i hi
    | true =>
      rw [Axes.mirror_node_flip _ _ _ h _ (by omega), Axes.mirror_node_flip _ _ _ h _ hi]
      have := hG.incr k (G.size k - 1 - (i + 1)) (by omega)
      rw [show G.size k - 1 - (i + 1) + 1 = G.size k - 1 - i by omega] at this
      linarith

theorem flipIndex_lt {flip : Fin N → Bool} {dims loc : Fin N → Nat} (h : ∀ k, loc k < dims k)
    (k : Fin N) : flipIndex flip dims loc k < dims k := by
  unfold flipIndex; have := h k; split <;> omega

theorem flipIndex_flipIndex {flip : Fin N → Bool} {dims loc : Fin N → Nat}
    (h : ∀ k, loc k < dims k) : flipIndex flip dims (flipIndex flip dims loc) = loc := by
  funext k; unfold flipIndex; have := h k; split <;> omega

/-- C55: mirroring any set of axes (grid, values and observation) does not change the results of
multilinear interpolation. -/
theorem C55_multilinear (e : Evaluator) (he : e.Fits N) (fma : Bool) (G : Axes K N)
    (vals vals' : List K) (hG : G.Valid 2 vals) (flip : Fin N → Bool)
    (hm : Mirrored flip G.size vals vals') (x : Fin N → K) (hx : G.Representable x)
    (hx' : (G.mirror flip).Representable (flipPoint flip x)) :
    ∃ y, multilinearAt e fma G vals x = .ok y ∧
      multilinearAt e fma (G.mirror flip) vals' (flipPoint flip x) = .ok y := by
  obtain ⟨c, hc⟩ := hG.cells le_rfl x
  have hg := samples_valAt (0 : K) _ _ hG.len
  have hm' := mirror_valid hG hm
  have hg' := samples_valAt (0 : K) _ _ hm'.len
  refine ⟨_, multilinearAt_eq e he fma G vals hG _ hg x hx c hc, ?_⟩
  rw [multilinearAt_eq e he fma _ vals' hm' _ hg' _ hx'
    (fun k => if flip k then G.size k - 2 - c k else c k) ?_]
  · congr 1
    have key : ∀ (k : Fin N) (f : Nat → K), linPiece ((G.mirror flip).node k) f
        (if flip k then G.size k - 2 - c k else c k) (flipPoint flip x k) =
        linPiece (G.node k) (fun i => f (if flip k then G.size k - 1 - i else i)) (c k) (x k) := by
      intro k f
      cases h : flip k with
      | false => rw [Axes.mirror_node_keep _ _ _ h]; simp [flipPoint, h]
      | true =>
        simp only [flipPoint, h, if_true]
        exact linPiece_mirror (hG.incr k) (Axes.mirror_node_flip flip G k h) (hc k).1
    rw [axisByAxis_congr_op _ _ _ key,
      axisByAxis_reindex (fun k f => linPiece (G.node k) f (c k) (x k)) _
        (fun k i => if flip k then G.size k - 1 - i else i)]
    refine axisByAxis_congr (fun k i => i < G.size k) _ _ _ _
      (fun k f f' hf => (linPiece_linear (hc k).1).congr f f' hf) fun loc hl => ?_
    have h1 := hg' (flipIndex flip G.size loc)
      (by rw [Axes.mirror_size]; exact flipIndex_lt hl)
    rw [Axes.mirror_size, hm.2 loc hl, hg loc hl] at h1
    rw [Axes.mirror_size]
    exact (Option.some.inj h1).symm
  · intro k
    rw [Axes.mirror_size]
    cases h : flip k with
    | false => rw [Axes.mirror_node_keep _ _ _ h]; simpa [flipPoint, h] using hc k
    | true =>
      simp only [flipPoint, h, if_true]
      exact inCell_mirror (Axes.mirror_node_flip flip G k h) (hc k)

/-- C55: mirroring any set of axes does not change the results of multicubic interpolation. -/
theorem C55_multicubic (e : Evaluator) (he : e.Fits N) (fma : Bool) (G : Axes K N)
    (vals vals' : List K) (lin : Bool) (hG : G.Valid 4 vals) (flip : Fin N → Bool)
    (hm : Mirrored flip G.size vals vals') (x : Fin N → K) (hx : G.RepresentableCubic x)
    (hx' : (G.mirror flip).RepresentableCubic (flipPoint flip x)) :
    ∃ y, multicubicAt e fma G vals lin x = .ok y ∧
      multicubicAt e fma (G.mirror flip) vals' lin (flipPoint flip x) = .ok y := by
  obtain ⟨c, hc⟩ := hG.cells (by omega) x
  have hg := samples_valAt (0 : K) _ _ hG.len
  have hm' := mirror_valid hG hm
  have hg' := samples_valAt (0 : K) _ _ hm'.len
  refine ⟨_, multicubicAt_eq e he fma G vals lin hG _ hg x hx c hc, ?_⟩
  rw [multicubicAt_eq e he fma _ vals' lin hm' _ hg' _ hx'
    (fun k => if flip k then G.size k - 2 - c k else c k) ?_]
  · congr 1
    have key : ∀ (k : Fin N) (f : Nat → K), cubicPiece ((G.mirror flip).size k)
        ((G.mirror flip).node k) f lin
        (if flip k then G.size k - 2 - c k else c k) (flipPoint flip x k) =
        cubicPiece (G.size k) (G.node k) (fun i => f (if flip k then G.size k - 1 - i else i)) lin
          (c k) (x k) := by
      intro k f
      rw [Axes.mirror_size]
      cases h : flip k with
      | false => rw [Axes.mirror_node_keep _ _ _ h]; simp [flipPoint, h]
      | true =>
        simp only [flipPoint, h, if_true]
        exact cubicPiece_mirror (hG.incr k) (Axes.mirror_node_flip flip G k h) (hG.big k) lin
          (hc k).1
    rw [axisByAxis_congr_op _ _ _ key,
      axisByAxis_reindex (fun k f => cubicPiece (G.size k) (G.node k) f lin (c k) (x k)) _
        (fun k i => if flip k then G.size k - 1 - i else i)]
    refine axisByAxis_congr (fun k i => i < G.size k) _ _ _ _
      (fun k f f' hf => (cubicPiece_linear (hG.big k) lin (hc k).1).congr f f' hf) fun loc hl => ?_
    have h1 := hg' (flipIndex flip G.size loc)
      (by rw [Axes.mirror_size]; exact flipIndex_lt hl)
    rw [Axes.mirror_size, hm.2 loc hl, hg loc hl] at h1
    rw [Axes.mirror_size]
    exact (Option.some.inj h1).symm
  · intro k
    rw [Axes.mirror_size]
    cases h : flip k with
    | false => rw [Axes.mirror_node_keep _ _ _ h]; simpa [flipPoint, h] using hc k
    | true =>
      simp only [flipPoint, h, if_true]
      exact inCell_mirror (Axes.mirror_node_flip flip G k h) (hc k)

end

section Examples

/-- C25: degrees Celsius to Fahrenheit on the first axis of a rectilinear grid. -/
example :
    exRectilinear.Valid 2 exVals ∧
      exRectilinear.rescale ![9/5, 1] ![32, 0] = .rectilinear ![[32, 169/5, 196/5], [1, 3]] ∧
      multilinearAt .flat false (exRectilinear.rescale ![9/5, 1] ![32, 0]) exVals
        ![9/5 * 2 + 32, 2] = multilinearAt .flat false exRectilinear exVals ![2, 2] := by
  refine ⟨valid_of_check ?_, ?_, ?_⟩
  · decide +kernel
  · simp only [exRectilinear, Axes.rescale]
    congr 1
    funext k
    fin_cases k <;> decide +kernel
  · decide +kernel

/-- C26: the transpose of a 3×2 array. -/
example :
    let σ : Equiv.Perm (Fin 2) := Equiv.swap 0 1
    let vals' : List ℚ := [2, 6, 10, 6, 16, 26]
    exRegular.Valid 2 exVals ∧ Transposed σ exRegular.size exVals vals' ∧
      multilinearAt .flat false (exRegular.permute σ) vals' ![2, 1/2] =
        multilinearAt .flat false exRegular exVals ![1/2, 2] := by
  intro σ vals'
  refine ⟨valid_of_check ?_, ⟨rfl, fun loc hl => ?_⟩, ?_⟩
  · decide +kernel
  · have h : ∀ l : (k : Fin 2) → Fin (exRegular.size k),
        vals'[cIndex (fun k => exRegular.size (σ k)) (fun k => (l (σ k)).val)]? =
          exVals[cIndex exRegular.size fun k => (l k).val]? := by decide +kernel
    exact h fun k => ⟨loc k, hl k⟩
  · decide +kernel

/-- C55: mirroring the first axis of a 3×2 array. -/
example :
    let flip : Fin 2 → Bool := ![true, false]
    let vals' : List ℚ := [10, 26, 6, 16, 2, 6]
    exRectilinear.Valid 2 exVals ∧ Mirrored flip exRectilinear.size exVals vals' ∧
      multilinearAt .flat false (exRectilinear.mirror flip) vals' ![-2, 2] =
        multilinearAt .flat false exRectilinear exVals ![2, 2] := by
  intro flip vals'
  refine ⟨valid_of_check ?_, ⟨rfl, fun loc hl => ?_⟩, ?_⟩
  · decide +kernel
  · have h : ∀ l : (k : Fin 2) → Fin (exRectilinear.size k),
        vals'[cIndex exRectilinear.size (flipIndex flip exRectilinear.size fun k => (l k).val)]? =
          exVals[cIndex exRectilinear.size fun k => (l k).val]? := by decide +kernel
    exact h fun k => ⟨loc k, hl k⟩
  · decide +kernel

end Examples

end Interpn
