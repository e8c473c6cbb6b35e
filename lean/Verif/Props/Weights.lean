import Verif.Lemmas.Weights
import Verif.Lemmas.ExampleGrids

/-! C137: every result is a weighted sum of the stored values with weights that do not depend on
the values. -/

set_option autoImplicit false
set_option linter.unusedSectionVars false

namespace Interpn

section
variable {K : Type} [Field K] [LinearOrder K] [IsStrictOrderedRing K] [FloorRing K] {N : Nat}

/-- The results of `result` on tables of length `L` are weighted sums with the weights `w`: `w i` is
the result for the table that is 1 at position `i` and 0 elsewhere, every table gives the sum of its
entries times the weights, and the weights add up to 1. -/
structure WeightsOf (L : Nat) (result : List K → Res K) (w : Nat → K) : Prop where
  unit : ∀ i < L, result ((List.range L).map fun j => if j = i then 1 else 0) = .ok (w i)
  sum : ∀ vals : List K, vals.length = L →
    result vals = .ok (∑ i ∈ Finset.range L, w i * vals.getD i 0)
  one : ∑ i ∈ Finset.range L, w i = 1

/-- The first moments of the weights are the observation: the nodes of `G`, weighted, average to
`x`. -/
def WeightsBalance (G : Axes K N) (x : Fin N → K) (w : Nat → K) : Prop :=
  ∀ k (coords : List K), coords.length = ∏ k, G.size k →
    Samples G.size coords (fun loc => G.node k (loc k)) →
    ∑ i ∈ Finset.range (∏ k, G.size k), w i * coords.getD i 0 = x k

theorem coordinate_affine (k : Fin N) : SeparatelyAffine fun x : Fin N → K => x k := by
  intro j y
  by_cases h : k = j
  · subst h
    exact ⟨0, 1, fun z => by simp⟩
  · exact ⟨y k, 0, fun z => by simp [Function.update_of_ne h]⟩

theorem sum_ones {L : Nat} (w : Nat → K) :
    ∑ i ∈ Finset.range L, w i * (List.replicate L (1 : K)).getD i 0 = ∑ i ∈ Finset.range L, w i := by
  refine Finset.sum_congr rfl fun i hi => ?_
  have := Finset.mem_range.mp hi
  simp [List.getD, this]

/-- C137: multilinear interpolation, at every representable point: the weights of the entries, which
vanish outside the cell's corners (at most `2 ^ N` are nonzero) and, inside the grid, are not
negative. -/
theorem C137_multilinear (e : Evaluator) (he : e.Fits N) (fma : Bool) (G : Axes K N)
    {vals : List K} (hG : G.Valid 2 vals) (x : Fin N → K) (hx : G.Representable x)
    (c : Fin N → Nat) (hc : ∀ k, InCell (G.size k) (G.node k) (x k) (c k)) :
    ∃ w : Nat → K, WeightsOf vals.length (fun v => multilinearAt e fma G v x) w ∧
      WeightsBalance G x w ∧
      (∀ loc : Fin N → Nat, (∀ k, loc k < G.size k) → w (cIndex G.size loc) ≠ 0 →
        ∀ k, loc k = c k ∨ loc k = c k + 1) ∧
      ((Finset.range vals.length).filter fun i => w i ≠ 0).card ≤ 2 ^ N ∧
      ((∀ k, InRange (G.size k) (G.node k) (x k)) → ∀ i < vals.length, 0 ≤ w i) := by
  have hop : ∀ k, LinearOn (G.size k) (fun f => linPiece (G.node k) f (c k) (x k)) :=
    fun k => linPiece_linear (hc k).1
  have hval : ∀ v : List K, v.length = vals.length → multilinearAt e fma G v x =
      .ok (axisByAxis (fun k f => linPiece (G.node k) f (c k) (x k)) (valAt 0 G.size v)) :=
    fun v hv => multilinearAt_eq e he fma G v (valid_of_length hG hv) _
      (samples_valAt 0 _ _ (valid_of_length hG hv).len) x hx c hc
  have hsum : ∀ v : List K, v.length = vals.length → multilinearAt e fma G v x =
      .ok (∑ i ∈ Finset.range vals.length,
        axisByAxis (fun k f => linPiece (G.node k) f (c k) (x k))
          (valAt 0 G.size (unitTable vals.length i)) * v.getD i 0) := by
    intro v hv
    rw [hval v hv, axisByAxis_weights _ hop, ← hG.len]
  have hsupp : ∀ loc : Fin N → Nat, (∀ k, loc k < G.size k) →
      axisByAxis (fun k f => linPiece (G.node k) f (c k) (x k))
        (valAt 0 G.size (unitTable vals.length (cIndex G.size loc))) ≠ 0 →
      ∀ k, loc k = c k ∨ loc k = c k + 1 := by
    intro loc hl hw
    rw [hG.len] at hw
    refine axisByAxis_support (fun k i => i = c k ∨ i = c k + 1) _ hop ?_ ?_ loc hl hw
    · intro k f f' hf
      simp only [linPiece]
      rw [hf _ (.inl rfl), hf _ (.inr rfl)]
    · intro k i hi
      have := (hc k).1
      omega
  refine ⟨fun i => axisByAxis (fun k f => linPiece (G.node k) f (c k) (x k))
    (valAt 0 G.size (unitTable vals.length i)), ⟨fun i _ => ?_, hsum, ?_⟩, ?_, hsupp, ?_, ?_⟩
  · exact hval _ (unitTable_length _ i)
  · have h1 := hsum (List.replicate vals.length 1) (by simp)
    rw [C24_multilinear_constant e he fma G _ (valid_of_length hG (by simp)) 1
      (fun y hy => List.eq_of_mem_replicate hy) x hx] at h1
    rw [← sum_ones]
    exact (Res.ok.inj h1).symm
  · intro k coords hl hs
    rw [← hG.len] at hl ⊢
    have h1 := hsum coords hl
    rw [C21_reproduces e he fma G coords (valid_of_length hG hl) (fun x => x k)
      (coordinate_affine k) hs x hx] at h1
    exact (Res.ok.inj h1).symm
  · rw [hG.len]
    refine support_card G.size c 2 _ fun loc hl hw k => ?_
    rw [← hG.len] at hw
    have := hsupp loc hl hw k
    omega
  · intro hin i hi
    have hu : (unitTable vals.length i : List K).length = vals.length := unitTable_length _ i
    obtain ⟨y, hy, h0, -⟩ := C22_range e he fma G _ (valid_of_length hG hu) _
      (samples_valAt 0 _ _ (valid_of_length hG hu).len) x hx hin c hc 0 1 (fun loc hl => by
        have hlt := cIndex_lt G.size loc fun k => by
          have := (hc k).1
          have := hl k
          omega
        rw [← hG.len] at hlt
        simp only [valAt]
        rw [unitTable_getD hlt]
        split_ifs <;> norm_num)
    rw [hval _ hu] at hy
    rw [← Res.ok.inj hy] at h0
    exact h0

/-- C137: multicubic interpolation: the weights vanish except at the cell's corners and their
neighbours (at most `4 ^ N` are nonzero), and inside the grid their absolute values add up to at
most `(1 + ρ² / (2 (1 + ρ))) ^ N`. -/
theorem C137_multicubic (e : Evaluator) (he : e.Fits N) (fma : Bool) (G : Axes K N)
    {vals : List K} (lin : Bool) (hG : G.Valid 4 vals) (x : Fin N → K) (hx : G.RepresentableCubic x)
    (c : Fin N → Nat) (hc : ∀ k, InCell (G.size k) (G.node k) (x k) (c k)) :
    ∃ w : Nat → K, WeightsOf vals.length (fun v => multicubicAt e fma G v lin x) w ∧
      WeightsBalance G x w ∧
      (∀ loc : Fin N → Nat, (∀ k, loc k < G.size k) → w (cIndex G.size loc) ≠ 0 →
        ∀ k, c k ≤ loc k + 1 ∧ loc k ≤ c k + 2) ∧
      ((Finset.range vals.length).filter fun i => w i ≠ 0).card ≤ 4 ^ N ∧
      ((∀ k, InRange (G.size k) (G.node k) (x k)) → ∀ ρ : K,
        (∀ k, MeshRatio (G.size k) (G.node k) ρ) →
        ∑ i ∈ Finset.range vals.length, |w i| ≤ (1 + ρ ^ 2 / (2 * (1 + ρ))) ^ N) := by
  have hop : ∀ k, LinearOn (G.size k)
      (fun f => cubicPiece (G.size k) (G.node k) f lin (c k) (x k)) :=
    fun k => cubicPiece_linear (hG.big k) lin (hc k).1
  have hval : ∀ v : List K, v.length = vals.length → multicubicAt e fma G v lin x =
      .ok (axisByAxis (fun k f => cubicPiece (G.size k) (G.node k) f lin (c k) (x k))
        (valAt 0 G.size v)) :=
    fun v hv => multicubicAt_eq e he fma G v lin (valid_of_length hG hv) _
      (samples_valAt 0 _ _ (valid_of_length hG hv).len) x hx c hc
  have hsum : ∀ v : List K, v.length = vals.length → multicubicAt e fma G v lin x =
      .ok (∑ i ∈ Finset.range vals.length,
        axisByAxis (fun k f => cubicPiece (G.size k) (G.node k) f lin (c k) (x k))
          (valAt 0 G.size (unitTable vals.length i)) * v.getD i 0) := by
    intro v hv
    rw [hval v hv, axisByAxis_weights _ hop, ← hG.len]
  have hsupp : ∀ loc : Fin N → Nat, (∀ k, loc k < G.size k) →
      axisByAxis (fun k f => cubicPiece (G.size k) (G.node k) f lin (c k) (x k))
        (valAt 0 G.size (unitTable vals.length (cIndex G.size loc))) ≠ 0 →
      ∀ k, c k ≤ loc k + 1 ∧ loc k ≤ c k + 2 := by
    intro loc hl hw k
    rw [hG.len] at hw
    exact (axisByAxis_support (fun k i => i < G.size k ∧ c k ≤ i + 1 ∧ i ≤ c k + 2) _ hop
      (fun k f f' hf => cubicPiece_local (hG.incr k) (hG.big k) lin (hc k) hf)
      (fun k i hi => hi.1) loc hl hw k).2
  refine ⟨fun i => axisByAxis (fun k f => cubicPiece (G.size k) (G.node k) f lin (c k) (x k))
    (valAt 0 G.size (unitTable vals.length i)), ⟨fun i _ => ?_, hsum, ?_⟩, ?_, hsupp, ?_, ?_⟩
  · exact hval _ (unitTable_length _ i)
  · have h1 := hsum (List.replicate vals.length 1) (by simp)
    rw [C24_multicubic_constant e he fma G _ lin (valid_of_length hG (by simp)) 1
      (fun y hy => List.eq_of_mem_replicate hy) x hx] at h1
    rw [← sum_ones]
    exact (Res.ok.inj h1).symm
  · intro k coords hl hs
    rw [← hG.len] at hl ⊢
    have h1 := hsum coords hl
    rw [C32_reproduces e he fma G coords lin (valid_of_length hG hl) (fun x => x k)
      (coordinate_affine k) hs x hx] at h1
    exact (Res.ok.inj h1).symm
  · rw [hG.len]
    refine support_card G.size (fun k => c k - 1) 4 _ fun loc hl hw k => ?_
    rw [← hG.len] at hw
    have := hsupp loc hl hw k
    omega
  · intro hin ρ hρ
    generalize hw : (fun i => axisByAxis
      (fun k f => cubicPiece (G.size k) (G.node k) f lin (c k) (x k))
      (valAt 0 G.size (unitTable vals.length i))) = w
    have hs := hsum ((List.range vals.length).map fun i => if w i < 0 then -1 else 1) (by simp)
    obtain ⟨y, hy, hb⟩ := C63_overshoot e he fma G
      ((List.range vals.length).map fun i => if w i < 0 then -1 else 1) lin
      (valid_of_length hG (by simp)) _
      (samples_valAt 0 _ _ (valid_of_length hG (by simp)).len) ρ hρ x hx hin c hc (-1) 1
      (fun loc hl => by
        have hlt := cIndex_lt G.size loc fun k => (hl k).1
        rw [← hG.len] at hlt
        simp only [valAt, List.getD, List.getElem?_map, List.getElem?_range hlt, Option.map_some,
          Option.getD_some]
        split_ifs <;> norm_num)
    rw [hs] at hy
    rw [← Res.ok.inj hy] at hb
    have e1 : ∀ i ∈ Finset.range vals.length, axisByAxis
        (fun k f => cubicPiece (G.size k) (G.node k) f lin (c k) (x k))
        (valAt 0 G.size (unitTable vals.length i)) *
        ((List.range vals.length).map fun i => if w i < 0 then (-1 : K) else 1).getD i 0 = |w i| := by
      intro i hi
      have hi' := Finset.mem_range.mp hi
      have : axisByAxis (fun k f => cubicPiece (G.size k) (G.node k) f lin (c k) (x k))
        (valAt 0 G.size (unitTable vals.length i)) = w i := congrFun hw i
      simp only [this, List.getD, List.getElem?_map, List.getElem?_range hi', Option.map_some,
          Option.getD_some]
      split_ifs with h
      · rw [abs_of_neg h]; ring
      · rw [abs_of_nonneg (not_lt.mp h)]; ring
    rw [Finset.sum_congr rfl e1] at hb
    have e3 : ((-1 : K) + 1) / 2 = 0 := by norm_num
    have e4 : ((1 : K) - -1) / 2 = 1 := by norm_num
    rw [e3, e4, sub_zero, mul_one] at hb
    exact (le_abs_self _).trans hb

/-- C137 on regular grids: inside the grid the absolute values of the multicubic weights add up to
at most `(5 / 4) ^ N`. -/
theorem C137_multicubic_regular (e : Evaluator) (he : e.Fits N) (fma : Bool) (dims : Fin N → Nat)
    (starts steps : Fin N → K) {vals : List K} (lin : Bool)
    (hG : (Axes.regular dims starts steps).Valid 4 vals) (x : Fin N → K)
    (hx : (Axes.regular dims starts steps).RepresentableCubic x)
    (hin : ∀ k, InRange (dims k) (fun i => starts k + steps k * i) (x k)) :
    ∃ w : Nat → K,
      WeightsOf vals.length (fun v => multicubicAt e fma (.regular dims starts steps) v lin x) w ∧
      ∑ i ∈ Finset.range vals.length, |w i| ≤ (5 / 4) ^ N := by
  obtain ⟨c, hc⟩ := hG.cells (by omega) x
  obtain ⟨w, h1, -, -, -, h2⟩ := C137_multicubic e he fma _ lin hG x hx c hc
  refine ⟨w, h1, ?_⟩
  have := h2 hin 1 (meshRatio_regular dims starts steps)
  have e5 : (1 : K) + 1 ^ 2 / (2 * (1 + 1)) = 5 / 4 := by norm_num
  rwa [e5] at this

/-- C137: nearest neighbor: one weight is 1, the others are 0. -/
theorem C137_nearest (fma : Bool) (G : Axes K N) {vals : List K} (hG : G.Valid 2 vals)
    (x : Fin N → K) (hx : G.Representable x) (loc : Fin N → Nat)
    (hl : ∀ k, IsNearest (G.size k) (G.node k) (x k) (loc k)) :
    WeightsOf vals.length (fun v => nearestAt fma G v x)
      fun i => if i = cIndex G.size loc then 1 else 0 := by
  have hlt := cIndex_lt G.size loc fun k => (hl k).1
  rw [← hG.len] at hlt
  have hval : ∀ v : List K, v.length = vals.length →
      nearestAt fma G v x = .ok (v.getD (cIndex G.size loc) 0) :=
    fun v hv => nearestAt_eq fma G v (valid_of_length hG hv) _
      (samples_valAt 0 _ _ (valid_of_length hG hv).len) x hx loc hl
  refine ⟨fun i _ => ?_, fun v hv => ?_, ?_⟩
  · have := hval (unitTable vals.length i) (unitTable_length _ i)
    rw [unitTable_getD hlt] at this
    refine this.trans (congrArg _ ?_)
    simp only [eq_comm]
  · refine (hval v hv).trans (congrArg _ ?_)
    rw [Finset.sum_eq_single (cIndex G.size loc)]
    · simp
    · intro i _ hi
      simp [hi]
    · intro h
      exact absurd (Finset.mem_range.mpr hlt) h
  · rw [Finset.sum_ite_eq' , if_pos (Finset.mem_range.mpr hlt)]

end

section Examples
attribute [local instance] ratOps

/-- The six bilinear weights on a 3 x 2 grid, inside and outside the grid. -/
example :
    exRegular.Valid 2 exVals ∧ exRegular.Representable ![1/2, 3/2] ∧
      (∀ k, InCell (exRegular.size k) (exRegular.node k) (![1/2, 3/2] k) (![0, 0] k)) ∧
      (∀ k, InRange (exRegular.size k) (exRegular.node k) (![1/2, 3/2] k)) ∧
      (List.range 6).map (fun i =>
        multilinearAt .flat false exRegular (unitTable 6 i) ![1/2, 3/2]) =
        [.ok (3/8), .ok (1/8), .ok (3/8), .ok (1/8), .ok 0, .ok 0] ∧
      (List.range 6).map (fun i =>
        multilinearAt .flat false exRegular (unitTable 6 i) ![5/2, 2]) =
        [.ok 0, .ok 0, .ok (-1/4), .ok (-1/4), .ok (3/4), .ok (3/4)] := by
  refine ⟨valid_of_check ?_, ?_⟩ <;> decide +kernel

/-- Cubic weights halfway between two inner nodes: two are negative, the absolute values add up to
5/4. -/
example :
    let G : Axes ℚ 1 := .regular (fun _ => 4) (fun _ => 0) fun _ => 2
    G.Valid 4 [1, 0, 0, 0] ∧ G.RepresentableCubic (fun _ => 3) ∧
      (∀ k, InCell (G.size k) (G.node k) 3 1) ∧ (∀ k, InRange (G.size k) (G.node k) 3) ∧
      (List.range 4).map (fun i => multicubicAt .flat false G (unitTable 4 i) true fun _ => 3) =
        [.ok (-1/16), .ok (9/16), .ok (9/16), .ok (-1/16)] := by
  intro G
  refine ⟨valid_of_check ?_, ?_⟩ <;> decide +kernel

/-- Nearest neighbor: all weight on one entry. -/
example :
    exRegular.Valid 2 exVals ∧ exRegular.Representable ![7/4, 3/2] ∧
      (∀ k, IsNearest (exRegular.size k) (exRegular.node k) (![7/4, 3/2] k) (![2, 0] k)) ∧
      (List.range 6).map (fun i => nearestAt false exRegular (unitTable 6 i) ![7/4, 3/2]) =
        [.ok 0, .ok 0, .ok 0, .ok 0, .ok 1, .ok 0] := by
  refine ⟨valid_of_check ?_, ?_⟩ <;> decide +kernel

end Examples

end Interpn
