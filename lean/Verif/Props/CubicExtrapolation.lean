import Verif.Lemmas.CubicNear
import Verif.Lemmas.SimpleBounds
import Verif.Lemmas.IeeeConst
import Verif.Lemmas.IeeeExamples

/-! C93: stability and accuracy of multicubic interpolation at observations outside the grid. -/

set_option autoImplicit false
set_option linter.unusedSectionVars false
set_option exponentiation.threshold 1100

namespace Interpn
open FloatOps

section
attribute [local instance] exactOps
variable {K : Type} [Field K] [LinearOrder K] [IsStrictOrderedRing K] [FloorRing K] {N : Nat}

/-- C93, exact arithmetic: at observations outside the grid by at most `lam` end cells on each axis,
changing every value by at most `ε` changes the result by at most `Λ^N ε`, where
`Λ = 1 + ρ²/(2 (1 + ρ)) + 8 ρ lam (1 + lam)` and `ρ` bounds the ratios of the widths of adjacent
cells: extrapolation amplifies errors polynomially with the distance, whichever way `lin` is set. -/
theorem C93_stability (e : Evaluator) (he : e.Fits N) (fma : Bool) (G : Axes K N)
    (vals vals' : List K) (lin : Bool) (hG : G.Valid 4 vals) (hG' : G.Valid 4 vals') (ε : K)
    (hv : ∀ i (h : i < vals.length) (h' : i < vals'.length), |vals[i] - vals'[i]| ≤ ε)
    (ρ : K) (hρ1 : 1 ≤ ρ) (hρ : ∀ k, MeshRatio (G.size k) (G.node k) ρ)
    (x : Fin N → K) (hx : G.RepresentableCubic x) (lam : K) (hlam : 0 ≤ lam)
    (hin : ∀ k, NearRange (G.size k) (G.node k) lam (x k)) :
    ∃ y y', multicubicAt e fma G vals lin x = .ok y ∧ multicubicAt e fma G vals' lin x = .ok y' ∧
      |y - y'| ≤ (1 + ρ ^ 2 / (2 * (1 + ρ)) + 8 * ρ * (lam * (1 + lam))) ^ N * ε := by
  obtain ⟨c, hc⟩ := hG.cells (by omega) x
  refine ⟨_, _, multicubicAt_eq e he fma G vals lin hG _ (samples_valAt 0 _ _ hG.len) x hx c hc,
    multicubicAt_eq e he fma G vals' lin hG' _ (samples_valAt 0 _ _ hG'.len) x hx c hc, ?_⟩
  have key : ∀ loc : Fin N → Nat, (∀ k, loc k < G.size k) →
      |valAt 0 G.size vals loc - valAt 0 G.size vals' loc| ≤ ε := by
    intro loc hl
    have h1 := cIndex_lt G.size loc hl
    rw [← hG.len] at h1
    have h2 : cIndex G.size loc < vals'.length := by rw [hG'.len, ← hG.len]; exact h1
    have := hv _ h1 h2
    simp only [valAt]
    rwa [List.getD_eq_getElem _ _ h1, List.getD_eq_getElem _ _ h2]
  have hε : 0 ≤ ε := (abs_nonneg _).trans
    (key c fun k => by have := (hc k).1; omega)
  have hsub := axisByAxis_lincomb (n := G.size)
    (fun k f => cubicPiece (G.size k) (G.node k) f lin (c k) (x k))
    (fun k => cubicPiece_linear (hG.big k) lin (hc k).1)
    (valAt 0 G.size vals) (valAt 0 G.size vals') 1 (-1)
  rw [one_mul, neg_one_mul, ← sub_eq_add_neg] at hsub
  rw [← hsub]
  have := axisByAxis_dev (m := (0 : K)) 
    (Λ := 1 + ρ ^ 2 / (2 * (1 + ρ)) + 8 * ρ * (lam * (1 + lam))) (by positivity)
    (fun k i => i < G.size k)
    (fun k f => cubicPiece (G.size k) (G.node k) f lin (c k) (x k))
    (fun loc => 1 * valAt 0 G.size vals loc + -1 * valAt 0 G.size vals' loc) ε
    (fun k f B _ hf => by
      have h0 : cubicPiece (G.size k) (G.node k) (fun _ => (0 : K)) lin (c k) (x k) = 0 :=
        (cubicPiece_linear (hG.big k) lin (hc k).1).zero
      have := cubicPiece_lip_near (f' := fun _ => 0) (hG.incr k) (hG.big k) lin (hc k) hlam (hin k) hρ1
        (hρ k)
        (fun j hj => hf j hj.1)
      rwa [h0] at this) hε (fun loc hl => by
      rw [sub_zero, one_mul, neg_one_mul, ← sub_eq_add_neg]
      exact key loc hl)
  rwa [sub_zero] at this

end

section
attribute [local instance] exactOps
variable {T K : Type} [FloatOps T] [Field K] [LinearOrder K] [IsStrictOrderedRing K] [FloorRing K]
  {val : T → K} {fin : T → Prop} {u η Ω : K} {N : Nat}

/-- C93, rectilinear grids: `C69_rectilinear` for observations outside the grid by at most `lam` end
cells on each axis. The computed result is finite and differs from the exact one by at most
`((Λ + κ)^N - Λ^N) M`, where `Λ = 1 + ρ²/(2 (1 + ρ)) + 8 ρ lam (1 + lam)` and
`κ = 1600 ρ (1 + lam)³ u`. -/
theorem C93_rectilinear (h : Rounds val fin u η Ω) (hcmp : ExactCompare val fin)
    (hsign : ExactSign val fin) (hu : u ≤ 1 / 1000) (e : Evaluator) (he : e.Fits N) (fma : Bool)
    (grids : Fin N → List T) (vals : List T) (lin : Bool)
    (hG : (Axes.rectilinear fun k => (grids k).map val).Valid 4 (vals.map val))
    (hgrid : ∀ k, ∀ a ∈ grids k, fin a ∧ 2 * |val a| ≤ Ω) (M : K)
    (hvals : ∀ v ∈ vals, fin v ∧ |val v| ≤ M)
    (x : Fin N → T) (hx : ∀ k, fin (x k) ∧ 2 * |val (x k)| ≤ Ω)
    (lam : K) (hlam : 0 ≤ lam)
    (hin : ∀ k, NearRange (grids k).length (fun i => ((grids k).map val).getD i 0) lam (val (x k)))
    (ρ : K) (hρ : 1 ≤ ρ)
    (hmesh : ∀ k, MeshRatio (grids k).length (fun i => ((grids k).map val).getD i 0) ρ)
    (Λ κ : K) (hΛ : Λ = 1 + ρ ^ 2 / (2 * (1 + ρ)) + 8 * ρ * (lam * (1 + lam)))
    (hκ : κ = 1600 * ρ * (1 + lam) ^ 3 * u)
    (hunder : η * (1 + ρ) ≤ u) (hunderM : η ≤ u * M) (hover1 : 64 * ρ ≤ Ω)
    (hover2 : 64 * (1 + lam) ≤ Ω)
    (hover : 64 * ((1 + lam) ^ 3 * ((Λ + κ) ^ (N - 1) * M * ρ)) ≤ Ω) :
    ∃ r y, multicubicRectilinearAt e fma grids vals lin x = .ok r ∧ fin r ∧
      multicubicAt e fma (.rectilinear fun k => (grids k).map val) (vals.map val) lin
        (fun k => val (x k)) = .ok y ∧
      |val r - y| ≤ ((Λ + κ) ^ N - Λ ^ N) * M := by
  have hu0 := h.u_nonneg
  have hlen : ∀ k, 4 ≤ (grids k).length := fun k => by
    have := hG.big k; simpa [Axes.size] using this
  have hincr : ∀ k, Incr ((grids k).map val).length (fun i => ((grids k).map val).getD i 0) :=
    fun k i hi => hG.increasing k i hi
  have hincr' : ∀ k, Incr (grids k).length (fun i => ((grids k).map val).getD i 0) := fun k => by
    have := hincr k; rwa [List.length_map] at this
  have hnode : ∀ (k : Fin N) (i : Nat), i < (grids k).length →
      ((grids k).map val).getD i 0 = val ((grids k).getD i zero) := fun k i hi => by
    rw [List.getD_eq_getElem _ _ (by simpa using hi), List.getElem_map,
      List.getD_eq_getElem _ _ hi]
  have hmem : ∀ (k : Fin N) (i : Nat) (hi : i < (grids k).length),
      fin ((grids k).getD i zero) ∧ 2 * |val ((grids k).getD i zero)| ≤ Ω := fun k i hi => by
    rw [List.getD_eq_getElem _ _ hi]; exact hgrid k _ (List.getElem_mem hi)
  have hvlen : vals.length = ∏ k, (grids k).length := by
    have := hG.len; simpa [Axes.size] using this
  have hslice : IsSlice vals := by
    have := hG.slice; rw [isSlice_iff] at this ⊢; simpa using this
  have hacc : RectilinearAccepted 4 grids vals := by
    refine ⟨hslice, hvlen, hlen, fun k => ?_⟩
    have h2 := hlen k
    have h01 := hincr' k 0 (by omega)
    simp only [hnode k 0 (by omega), hnode k (0 + 1) (by omega)] at h01
    have := (hcmp _ _ (hmem k 0 (by omega)).1 (hmem k (0 + 1) (by omega)).1).2 h01
    match hgk : grids k with
    | [] => rw [hgk] at h2; simp at h2
    | [_] => rw [hgk] at h2; simp at h2
    | a :: b :: rest =>
      rw [hgk] at this
      exact ⟨a, b, rest, rfl, this⟩
  -- the same cells are found
  have hbelow : ∀ k, cellsBelow (grids k) (x k) = cellsBelow ((grids k).map val) (val (x k)) :=
    fun k => float_cellsBelow hcmp (hx k).1 (fun a ha => (hgrid k a ha).1) (hincr' k)
  have hb := fun k i hi => (cellsBelow_exact (hincr k) (val (x k)) i hi)
  simp only [List.length_map, ← hbelow] at hb
  have hcell : ∀ k, InCell (grids k).length (fun i => ((grids k).map val).getD i 0) (val (x k))
      (linCell ((grids k).map val) (val (x k))) := fun k => by
    have := rectilinear_inCell (by rw [List.length_map]; have := hlen k; omega) (hincr k)
      (val (x k))
    rwa [List.length_map] at this
  have hshape : ∀ k, CellShape (fun q : Fin 4 => val ((grids k).getD
      (cubCell (grids k) (x k) + q.val) zero)) (val (x k)) ρ (1 + lam)
      (satRectilinear (grids k).length (cellsBelow (grids k) (x k))) := fun k => by
    have := cellShape_of_near (hlen k) (hincr' k) hlam (hmesh k) (hin k)
      (cellsBelow_le (grids k) (x k)) (hb k)
    have e : (fun q : Fin 4 => val ((grids k).getD (cubCell (grids k) (x k) + q.val) zero)) =
        fun q : Fin 4 => ((grids k).map val).getD
          (min (cellsBelow (grids k) (x k) - 2) ((grids k).length - 4) + q.val) 0 := by
      funext q
      have := cubCell_bound (hlen k) (x k)
      have hq := q.isLt
      rw [hnode k _ (by unfold cubCell at this; omega)]
      rfl
    rw [e]
    exact this
  -- the data
  set g := valAt zero (fun k => (grids k).length) vals with hgdef
  have hs := samples_valAt zero (fun k => (grids k).length) vals hvlen
  rw [← hgdef] at hs
  have hgM : ∀ loc : Fin N → Nat, (∀ k, loc k < (grids k).length) →
      fin (g loc) ∧ |val (g loc)| ≤ M := fun loc hl =>
    hvals _ (List.mem_of_getElem? (hs loc hl))
  have hM : 0 ≤ M := (abs_nonneg _).trans
    (hgM (fun _ => 0) fun k => by have := hlen k; omega).2
  have hsize : (Axes.rectilinear fun k => (grids k).map val).size = fun k => (grids k).length := by
    funext k; simp [Axes.size]
  have hs' : Samples (Axes.rectilinear fun k => (grids k).map val).size (vals.map val)
      (fun loc => val (g loc)) := by
    rw [hsize]
    intro loc hl
    rw [List.getElem?_map, hs loc hl]; rfl
  have hex := multicubicAt_eq e he fma (.rectilinear fun k => (grids k).map val) (vals.map val) lin
    hG _ hs' (fun k => val (x k)) trivial (fun k => linCell ((grids k).map val) (val (x k)))
    (fun k => by rw [hsize]; exact hcell k)
  rw [hsize] at hex
  -- scales
  have hρ0 : 0 < ρ := lt_of_lt_of_le one_pos hρ
  have hΛ1 : 1 ≤ Λ := by
    rw [hΛ]
    have h1 : 0 ≤ ρ ^ 2 / (2 * (1 + ρ)) := by positivity
    have h2 : 0 ≤ 8 * ρ * (lam * (1 + lam)) := by positivity
    linarith
  have hκ0 : 0 ≤ κ := by rw [hκ]; positivity
  have hΛκ : 1 ≤ Λ + κ := by linarith
  have key := rounds_axisByAxis (fin := fin) (κ := κ) (M := M) (zero_le_one.trans hΛ1)
    (fun k i => i < (grids k).length)
    (fun k => cubRectRule fma (e.fmaBdry fma) (e.fmaBdry fma) lin (grids k) (x k))
    (fun k f => cubicPiece (grids k).length (fun i => ((grids k).map val).getD i 0) f lin
      (linCell ((grids k).map val) (val (x k))) (val (x k))) g ?_ ?_ ?_ hgM
  · refine ⟨_, _, ?_, key.1, hex, key.2.2⟩
    rw [multicubicRectilinearAt_eq e he fma grids vals lin hslice x, hacc.check (by omega),
      Res.ok_bind]
  · intro k f f' ε hf
    rw [hΛ]
    exact cubicPiece_lip_near (hincr' k) (hlen k) lin (hcell k) hlam (hin k) hρ (hmesh k)
      fun j hj => hf j hj.1
  · intro k B f hf
    have := cubicPiece_lip_near (hincr' k) (hlen k) lin (hcell k) hlam (hin k) hρ (hmesh k) (f := f)
      (f' := fun _ => 0) (ε := B) fun j hj => by rw [sub_zero]; exact hf j hj.1
    have h0 : cubicPiece (grids k).length (fun i => ((grids k).map val).getD i 0) (fun _ => 0) lin
        (linCell ((grids k).map val) (val (x k))) (val (x k)) = 0 :=
      cubicPiece_affine (hincr' k) (hlen k) (hcell k).1 lin (φ := fun _ => (0 : K))
        ⟨0, 0, fun z => by ring⟩
    rw [h0, sub_zero, ← hΛ] at this
    exact this
  · intro k j f hj hf
    have hpow : M ≤ (Λ + κ) ^ j * M := le_mul_of_one_le_left hM (one_le_pow₀ hΛκ)
    have hpow' : (Λ + κ) ^ j * M ≤ (Λ + κ) ^ (N - 1) * M := by
      gcongr
      omega
    have hbd := cubCell_bound (hlen k) (x k)
    have := apx_rectilinear h hu hsign (B := (Λ + κ) ^ j * M) (ρ := ρ) (r := 1 + lam)
      ⟨hM.trans hpow, hρ, by linarith, hunder, hunderM.trans (by gcongr), hover1, hover2, by
        refine le_trans ?_ hover
        gcongr⟩
      fma (e.fmaBdry fma) (e.fmaBdry fma) lin
      (v := fun p => f (cubCell (grids k) (x k) + p.val))
      (fun p => hf _ (by have := p.isLt; omega)) (fun p => hmem k _ (by have := p.isLt; omega))
      (hx k) (hshape k)
    have hrule := cubRectRule_exact false false false lin (by rw [List.length_map]; exact hlen k)
      (hincr k) (val (x k)) (fun i => val (f i))
    rw [List.length_map] at hrule
    have hexact : cubRectRule false false false lin ((grids k).map val) (val (x k))
        (fun i => val (f i)) = cubicInnerRectilinear false false false
          (fun p : Fin 4 => val (f (cubCell (grids k) (x k) + p.val)))
          (fun p : Fin 4 => val ((grids k).getD (cubCell (grids k) (x k) + p.val) zero))
          (val (x k)) (satRectilinear (grids k).length (cellsBelow (grids k) (x k))) lin := by
      have ec : cubCell ((grids k).map val) (val (x k)) = cubCell (grids k) (x k) := by
        unfold cubCell; rw [hbelow k, List.length_map]
      unfold cubRectRule
      rw [ec, ← hbelow k, List.length_map]
      congr 1
      funext p
      exact hnode k _ (by have := p.isLt; omega)
    rw [hexact] at hrule
    rw [hrule] at this
    refine ⟨this.1, this.2.trans ?_⟩
    have hB : 0 ≤ (Λ + κ) ^ j * M := hM.trans hpow
    have : 0 ≤ u * ((1 + lam) ^ 3 * ((Λ + κ) ^ j * M * ρ)) := by positivity
    have e : κ * ((Λ + κ) ^ j * M) = 1600 * (u * ((1 + lam) ^ 3 * ((Λ + κ) ^ j * M * ρ))) := by
      rw [show κ * ((Λ + κ) ^ j * M) = (1600 * ρ * (1 + lam) ^ 3 * u) * ((Λ + κ) ^ j * M) by
        rw [← hκ]]
      ring
    rw [e]
    linarith

/-- C93, regular grids: `C70_regular` for observations outside the grid by at most `lam` steps on
each axis. -/
theorem C93_regular (h : Rounds val fin u η Ω) (hcmp : ExactCompare val fin)
    (hsign : ExactSign val fin) (hT : TotalOfUsize T) {n : Nat} (hwhole : ExactWhole val fin n)
    (hu : u ≤ 1 / 1000) (e : Evaluator) (he : e.Fits N) (fma : Bool)
    (dims : Fin N → Nat) (starts steps : Fin N → T) (vals : List T) (lin : Bool)
    (hG : (Axes.regular dims (fun k => val (starts k)) fun k => val (steps k)).Valid 4
      (vals.map val))
    (hdims : ∀ k, dims k ≤ n) (hfin : ∀ k, fin (starts k) ∧ fin (steps k))
    (A : Fin N → K) (hA : ∀ k, |val (starts k)| ≤ A k ∧
      |val (starts k) + val (steps k) * ((dims k - 1 : Nat) : K)| ≤ A k)
    (M : K) (hvals : ∀ v ∈ vals, fin v ∧ |val v| ≤ M)
    (x : Fin N → T) (hx : ∀ k, fin (x k))
    (lam : K) (hlam : 0 ≤ lam)
    (hin : ∀ k, NearRange (dims k) (fun i => val (starts k) + val (steps k) * (i : K)) lam
      (val (x k)))
    (hbounds : ∀ k, AxisInBounds u η Ω (A k) (2 + lam) (val (steps k)) (val (x k)) (dims k))
    (hsmall : ∀ k, regularWeightError u η (A k) (val (steps k)) (3 + lam) +
      positionError u η (((dims k - 1 : Nat) : K) + lam) ≤ 1 / 100)
    (Λ κ : K) (hΛ : Λ = 5 / 4 + 8 * (lam * (1 + lam)))
    (hκ : ∀ k, cubicAxisDeviationOut u η (A k) lam (val (steps k)) (dims k) ≤ κ)
    (hunder : 2 * η ≤ u) (hunderM : η ≤ u * M) (hover1 : 128 * (1 + lam) ≤ Ω)
    (hover : 128 * ((1 + lam) ^ 3 * ((Λ + κ) ^ (N - 1) * M)) ≤ Ω) :
    ∃ r y, multicubicRegularAt e fma dims starts steps vals lin x = .ok r ∧ fin r ∧
      multicubicAt e fma (.regular dims (fun k => val (starts k)) fun k => val (steps k))
        (vals.map val) lin (fun k => val (x k)) = .ok y ∧
      |val r - y| ≤ ((Λ + κ) ^ N - Λ ^ N) * M := by
  have hu0 := h.u_nonneg
  have hη := h.η_nonneg
  have hbig : ∀ k, 4 ≤ dims k := fun k => hG.big k
  have hpos : ∀ k, 0 < val (steps k) := fun k => hG.step_pos (by omega) k
  have hincr : ∀ k, Incr (dims k) (fun i : Nat => val (starts k) + val (steps k) * (i : K)) :=
    fun k i hi => hG.increasing k i hi
  have hvlen : vals.length = ∏ k, dims k := by
    have := hG.len; simpa [Axes.size] using this
  have hslice : IsSlice vals := by
    have := hG.slice; rw [isSlice_iff] at this ⊢; simpa using this
  have hacc : RegularAccepted 4 dims steps vals := by
    refine ⟨hslice, hvlen, hbig, fun k => ?_⟩
    exact (hcmp _ _ hwhole.zero.1 (hfin k).2).2 (by rw [hwhole.zero.2]; exact hpos k)
  have hω0 : ∀ k, 0 ≤ regularWeightError u η (A k) (val (steps k)) (3 + lam) := fun k => by
    have := nodeError_nonneg hu0 hη ((abs_nonneg _).trans (hA k).1)
    have := hpos k
    unfold regularWeightError
    positivity
  have hδ0 : ∀ k, 0 ≤ positionError u η (((dims k - 1 : Nat) : K) + lam) := fun k =>
    positionError_nonneg hu0 hη (add_nonneg (Nat.cast_nonneg _) hlam)
  -- the computed footprints
  have hax := fun k => rounds_cubic_axis_near h hwhole (hdims k) (hbig k) (hfin k).1 (hfin k).2 (hx k)
    (hpos k) hlam (hA k).1 (hA k).2 (hin k) (hbounds k) (by linarith [hsmall k, hω0 k])
  choose q' t hrun hq' htf hte hq0 hq1 hrep0 hrep1 using hax
  -- the exact cells
  set G : Axes K N := .regular dims (fun k => val (starts k)) fun k => val (steps k) with hGdef
  have hd : ∀ k, InCell (dims k) (fun i : Nat => val (starts k) + val (steps k) * (i : K))
      (val (x k)) (clampIdx ⌊(val (x k) - val (starts k)) / val (steps k)⌋ (dims k - 2)) :=
    fun k => regular_inCell (hpos k) (by have := hbig k; omega)
  have hrep : G.RepresentableCubic fun k => val (x k) := fun k => ⟨hrep0 k, hrep1 k⟩
  -- the data
  set g := valAt zero dims vals with hgdef
  have hs := samples_valAt zero dims vals hvlen
  rw [← hgdef] at hs
  have hgM : ∀ loc : Fin N → Nat, (∀ k, loc k < dims k) → fin (g loc) ∧ |val (g loc)| ≤ M :=
    fun loc hl => hvals _ (List.mem_of_getElem? (hs loc hl))
  have hM : 0 ≤ M := (abs_nonneg _).trans
    (hgM (fun _ => 0) fun k => by have := hbig k; omega).2
  have hs' : Samples G.size (vals.map val) (fun loc => val (g loc)) := by
    intro loc hl
    rw [List.getElem?_map]
    exact congrArg (Option.map val) (hs loc hl)
  have hex := multicubicAt_eq e he fma G (vals.map val) lin hG _ hs' (fun k => val (x k)) hrep _ hd
  have hmesh : ∀ k, MeshRatio (dims k) (fun i : Nat => val (starts k) + val (steps k) * (i : K)) 1 :=
    fun k i hi => by constructor <;> (push_cast; linarith)
  have hΛ' : (1 : K) + 1 ^ 2 / (2 * (1 + 1)) + 8 * 1 * (lam * (1 + lam)) = Λ := by
    rw [hΛ]; norm_num
  have hΛ1 : 1 ≤ Λ := by
    rw [hΛ]
    have : 0 ≤ 8 * (lam * (1 + lam)) := by positivity
    linarith
  have hκ0 : 0 ≤ κ := by
    obtain ⟨k⟩ : Nonempty (Fin N) := ⟨⟨0, he.pos⟩⟩
    refine le_trans ?_ (hκ k)
    have := hω0 k
    have := hδ0 k
    unfold cubicAxisDeviationOut
    positivity
  have hΛκ : 1 ≤ Λ + κ := by linarith
  have key := rounds_axisByAxis (fin := fin) (Λ := Λ) (κ := κ) (M := M) (by linarith)
    (fun k i => i < dims k)
    (fun k => cubRegRule fma (e.fmaLow fma) lin (clampIdx (⌊q' k⌋ - 1) (dims k - 4),
      satRegular (dims k) ⌊q' k⌋, t k))
    (fun k f => cubicPiece (dims k) (fun i : Nat => val (starts k) + val (steps k) * (i : K)) f lin
      (clampIdx ⌊(val (x k) - val (starts k)) / val (steps k)⌋ (dims k - 2)) (val (x k))) g
      ?_ ?_ ?_ hgM
  · refine ⟨_, _, ?_, key.1, hex, key.2.2⟩
    rw [multicubicRegularAt_eq e he fma hT dims starts steps vals lin hslice x,
      hacc.check (by omega), Res.ok_bind,
      axisLoop_ok N _ _ _ (fun k => by simp only [aget_fin, Res.ok_bind]; exact hrun k),
      Res.ok_bind]
  · intro k f f' ε hf
    rw [← hΛ']
    exact cubicPiece_lip_near (hincr k) (hbig k) lin (hd k) hlam (hin k) le_rfl (hmesh k) fun j hj => hf j hj.1
  · intro k B f hf
    have := cubicPiece_lip_near (hincr k) (hbig k) lin (hd k) hlam (hin k) le_rfl (hmesh k) (f := f)
      (f' := fun _ => 0) (ε := B) fun j hj => by rw [sub_zero]; exact hf j hj.1
    have h0 : cubicPiece (dims k) (fun i : Nat => val (starts k) + val (steps k) * (i : K))
        (fun _ => 0) lin (clampIdx ⌊(val (x k) - val (starts k)) / val (steps k)⌋ (dims k - 2))
        (val (x k)) = 0 :=
      cubicPiece_affine (hincr k) (hbig k) (hd k).1 lin (φ := fun _ => (0 : K))
        ⟨0, 0, fun z => by ring⟩
    rw [h0, sub_zero, hΛ'] at this
    exact this
  · intro k j f hj hf
    set B := (Λ + κ) ^ j * M with hBdef
    have hB0 : M ≤ B := le_mul_of_one_le_left hM (one_le_pow₀ hΛκ)
    have hB : 0 ≤ B := hM.trans hB0
    have hBN : B ≤ (Λ + κ) ^ (N - 1) * M := by
      rw [hBdef]
      gcongr
      omega
    set ω := regularWeightError u η (A k) (val (steps k)) (3 + lam) with hω
    set δ := positionError u η (((dims k - 1 : Nat) : K) + lam) with hδ
    have hsm := hsmall k
    have hωk := hω0 k
    have hδk := hδ0 k
    rw [← hω, ← hδ] at hsm
    rw [← hω] at hωk
    rw [← hδ] at hδk
    set q := (val (x k) - val (starts k)) / val (steps k) with hq
    set o := clampIdx (⌊q' k⌋ - 1) (dims k - 4) with ho
    set p := val (t k) + ((o + 1 : Nat) : K) with hp
    have hqq := hq' k
    have hpq := hte k
    rw [← hq, ← hδ] at hqq
    rw [← ho, ← hp, ← hq, ← hω] at hpq
    have a0 : -lam ≤ q := hq0 k
    have a1 : q ≤ ((dims k - 1 : Nat) : K) + lam := hq1 k
    have hqb := abs_le.1 hqq
    have hpb := abs_le.1 hpq
    have fq := Int.floor_le (q' k)
    have lq := Int.lt_floor_add_one (q' k)
    have htp : val (t k) = p - ((o + 1 : Nat) : K) := by rw [hp]; ring
    have hreach : Reach (val (t k)) (1 + (lam + (ω + δ))) (satRegular (dims k) ⌊q' k⌋) := by
      rw [htp, ho]
      exact reach_of_near (hbig k) (by linarith) (by linarith) (by linarith) (by linarith)
    have r1 : 1 + (lam + (ω + δ)) ≤ 101 / 100 * (1 + lam) := by linarith
    have r0 : (0 : K) ≤ 1 + (lam + (ω + δ)) := by linarith
    have hl0 : 0 ≤ (1 + lam) ^ 2 := by positivity
    have hl3 : 0 ≤ (1 + lam) ^ 3 := by positivity
    have r2 : (1 + (lam + (ω + δ))) ^ 2 ≤ 59 / 57 * (1 + lam) ^ 2 :=
      (pow_le_pow_left₀ r0 r1 2).trans (by rw [mul_pow]; linarith)
    have r3 : (1 + (lam + (ω + δ))) ^ 3 ≤ 1650 / 1593 * (1 + lam) ^ 3 :=
      (pow_le_pow_left₀ r0 r1 3).trans (by rw [mul_pow]; linarith)
    have hcb := clampIdx_le (⌊q' k⌋ - 1) (dims k - 4)
    rw [← ho] at hcb
    have hbg := hbig k
    have hl1 : 1 ≤ (1 + lam) ^ 3 := one_le_pow₀ (by linarith)
    have hBo : 128 * ((1 + lam) ^ 3 * B) ≤ Ω := le_trans (by gcongr) hover
    have s1 := apx_regular h hu hsign (B := B) (r := 1 + (lam + (ω + δ)))
      ⟨hB, le_rfl, by linarith, by linarith, hunderM.trans (by gcongr), by linarith, by linarith, by
        have : (1 + (lam + (ω + δ))) ^ 3 * (B * 1) ≤ 1650 / 1593 * (1 + lam) ^ 3 * (B * 1) := by
          gcongr
        have : 0 ≤ (1 + lam) ^ 3 * B := by positivity
        linarith⟩
      fma (e.fmaLow fma) lin (v := fun i => f (o + i.val)) (t := t k)
      (sat := satRegular (dims k) ⌊q' k⌋)
      (fun i => hf _ (by have := i.isLt; omega)) (htf k) hreach
    have s2 := regPiece_close_near (hbig k) lin (f := fun i => val (f i)) (B := B)
      (fun i hi => (hf i hi).2) hlam a0 a1 hqq hpq (by linarith)
    have e1 : regPiece (dims k) lin (fun i => val (f i)) ⌊q' k⌋ p =
        cubicInnerRegular false false (fun i : Fin 4 => val (f (o + i.val))) (val (t k))
          (satRegular (dims k) ⌊q' k⌋) lin := by
      rw [htp]; rfl
    have e2 : regPiece (dims k) lin (fun i => val (f i)) ⌊q⌋ q =
        cubicPiece (dims k) (fun i : Nat => val (starts k) + val (steps k) * (i : K))
          (fun i => val (f i)) lin (clampIdx ⌊q⌋ (dims k - 2)) (val (x k)) := by
      have := cubRegRule_exact false false lin (hbig k) (start := val (starts k)) (x := val (x k))
        (hpos k) (fun i => val (f i))
      rw [← this, ← hq]
      unfold regPiece cubRegRule
      congr 1
      rw [hq]
      have := (hpos k).ne'
      field_simp
      ring
    rw [e1, e2] at s2
    refine ⟨s1.1, (abs_sub_le _ _ _).trans ((add_le_add s1.2 s2).trans ?_)⟩
    have hk := hκ k
    unfold cubicAxisDeviationOut at hk
    rw [← hω, ← hδ] at hk
    have b1 : 1593 * (u * ((1 + (lam + (ω + δ))) ^ 3 * B)) ≤ 1650 * (1 + lam) ^ 3 * u * B := by
      have : u * ((1 + (lam + (ω + δ))) ^ 3 * B) ≤ u * (1650 / 1593 * (1 + lam) ^ 3 * B) := by gcongr
      linarith
    have b2 : 57 * (1 + (lam + (ω + δ))) ^ 2 * B * (ω + 2 * δ) ≤
        59 * (1 + lam) ^ 2 * (ω + 2 * δ) * B := by
      have h1 : 57 * (1 + (lam + (ω + δ))) ^ 2 * B ≤ 57 * (59 / 57 * (1 + lam) ^ 2) * B := by gcongr
      have h2 : 0 ≤ ω + 2 * δ := by linarith
      have := mul_le_mul_of_nonneg_right h1 h2
      linarith
    have := mul_le_mul_of_nonneg_right hk hB
    linarith

end

end Interpn
