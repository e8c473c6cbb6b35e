import Verif.Props.MultilinearExact
import Verif.Props.MulticubicExact
import Verif.Lemmas.Subgrid

/-! C73: interpolating on a part of the table gives the results of the whole table. C74: a table
resampled on a finer grid gives the same multilinear interpolant. Exact arithmetic, both grid
kinds (`Axes`) and both implementations (`Evaluator`). -/

set_option autoImplicit false
set_option linter.unusedSectionVars false

namespace Interpn

section
variable {K : Type} [Field K] [LinearOrder K] [IsStrictOrderedRing K] [FloorRing K] {N : Nat}

/-! ### Parts of a table -/

/-- Where the part of axis `k` made of the nodes `a`, ..., `a + m - 1` determines the result:
between its nodes `r` and `m - 1 - r`; no limit on a side where the part reaches the end of the
axis. -/
def Axes.Covers (r : Nat) (G : Axes K N) (a m : Fin N → Nat) (x : Fin N → K) : Prop :=
  ∀ k, a k + m k ≤ G.size k ∧ (a k = 0 ∨ G.node k (a k + r) ≤ x k) ∧
    (a k + m k = G.size k ∨ x k ≤ G.node k (a k + m k - 1 - r))

theorem sub_incr {G : Axes K N} {q : Nat} {vals : List K} (hG : G.Valid q vals)
    {a m : Fin N → Nat} {r : Nat} {x : Fin N → K} (hs : G.Covers r a m x) (k : Fin N) :
    Incr (m k) (fun i => G.node k (a k + i)) := fun i hi => by
  have := (hs k).1
  exact hG.incr k (a k + i) (by omega)

theorem sub_fits {G : Axes K N} {q : Nat} {vals : List K} (hG : G.Valid q vals) (hq : 2 ≤ q)
    {a m : Fin N → Nat} {r : Nat} {x : Fin N → K} (hs : G.Covers r a m x) {lo : Int} (hlo : lo ≤ 0)
    (hx : G.StepsFit lo x) : (G.sub a m).StepsFit lo x := by
  cases G with
  | rectilinear => trivial
  | regular dims starts steps =>
    intro k
    have hp := hG.step_pos hq k
    have e : (x k - (starts k + steps k * (a k : K))) / steps k =
        (x k - starts k) / steps k - (a k : K) := by
      field_simp; ring
    have e' : ⌊(x k - (starts k + steps k * (a k : K))) / steps k⌋ =
        ⌊(x k - starts k) / steps k⌋ - (a k : Int) := by
      rw [e, Int.floor_sub_natCast]
    have := hx k
    rw [e']
    refine ⟨?_, by omega⟩
    rcases (hs k).2.1 with h | h
    · rw [h]; simpa using this.1
    · have h0 : 0 ≤ (x k - (starts k + steps k * (a k : K))) / steps k := by
        refine div_nonneg (sub_nonneg.2 (le_trans ?_ h)) hp.le
        simp only [Axes.node]
        push_cast
        have : 0 ≤ steps k * (r : K) := mul_nonneg hp.le (Nat.cast_nonneg _)
        linarith
      have := Int.floor_nonneg.2 h0
      rw [e'] at this
      omega

/-- C73, multilinear: the part of the table with nodes `a k`, ..., `a k + m k - 1` on each axis
`k` gives the result of the whole table at every observation in its range, and also beyond where
the part reaches the end of the axis. -/
theorem C73_multilinear (e e' : Evaluator) (he : e.Fits N) (he' : e'.Fits N)
    (fma fma' : Bool) (G : Axes K N) (a m : Fin N → Nat)
    (vals vals' : List K) (hG : G.Valid 2 vals) (hG' : (G.sub a m).Valid 2 vals')
    (g : (Fin N → Nat) → K) (hg : Samples G.size vals g)
    (hg' : Samples (G.sub a m).size vals' fun loc => g fun k => a k + loc k)
    (x : Fin N → K) (hs : G.Covers 0 a m x) (hx : G.Representable x) :
    ∃ y, multilinearAt e fma G vals x = .ok y ∧
      multilinearAt e' fma' (G.sub a m) vals' x = .ok y := by
  have hsz := Axes.sub_size a m G fun k => (hs k).1
  obtain ⟨c, hc⟩ := hG'.cells le_rfl x
  have hc' : ∀ k, InCell (G.size k) (G.node k) (x k) (a k + c k) := by
    intro k
    have h := hc k
    rw [hsz k] at h
    obtain ⟨h1, h2, h3⟩ := h
    rw [Axes.sub_node a m G k (by omega)] at h2
    rw [Axes.sub_node a m G k h1] at h3
    obtain ⟨s1, s2, s3⟩ := hs k
    refine ⟨by omega, ?_, ?_⟩
    · rcases h2 with h2 | h2
      · rcases s2 with s2 | s2
        · left; omega
        · right; rw [h2]; exact s2
      · exact .inr h2
    · rcases h3 with h3 | h3
      · rcases s3 with s3 | s3
        · left; omega
        · right
          rwa [show a k + m k - 1 - 0 = a k + c k + 1 by omega] at s3
      · exact .inr h3
  refine ⟨_, multilinearAt_eq e he fma G vals hG g hg x hx _ hc', ?_⟩
  rw [multilinearAt_eq e' he' fma' _ vals' hG' _ hg' x
    (sub_fits hG le_rfl hs (by decide) hx) c hc]
  congr 1
  refine axisByAxis_shift a _ _ g fun k f => ?_
  have h := (hc k).1
  rw [hsz k] at h
  unfold linPiece
  rw [Axes.sub_node a m G k (by omega), Axes.sub_node a m G k h]
  simp only [Nat.add_assoc]

/-- C73, multicubic: the same between the second and the last but one node of the part. -/
theorem C73_multicubic (e e' : Evaluator) (he : e.Fits N) (he' : e'.Fits N)
    (fma fma' : Bool) (G : Axes K N) (a m : Fin N → Nat)
    (vals vals' : List K) (lin : Bool) (hG : G.Valid 4 vals) (hG' : (G.sub a m).Valid 4 vals')
    (g : (Fin N → Nat) → K) (hg : Samples G.size vals g)
    (hg' : Samples (G.sub a m).size vals' fun loc => g fun k => a k + loc k)
    (x : Fin N → K) (hs : G.Covers 1 a m x) (hx : G.RepresentableCubic x) :
    ∃ y, multicubicAt e fma G vals lin x = .ok y ∧
      multicubicAt e' fma' (G.sub a m) vals' lin x = .ok y := by
  have hsz := Axes.sub_size a m G fun k => (hs k).1
  have hbig : ∀ k, 4 ≤ m k := fun k => by have := hG'.big k; rwa [hsz k] at this
  have hinc : ∀ k, Incr (m k) ((G.sub a m).node k) := fun k => by
    have := hG'.incr k; rwa [hsz k] at this
  have hcell : ∀ k, ∃ c, InCell (m k) ((G.sub a m).node k) (x k) c ∧
      (a k = 0 ∨ 1 ≤ c) ∧ (a k + m k = G.size k ∨ c + 2 < m k) := by
    intro k
    obtain ⟨s1, s2, s3⟩ := hs k
    refine exists_inner_cell (hbig k) (hinc k) (s2.imp_right fun h => ?_) (s3.imp_right fun h => ?_)
    · rw [Axes.sub_node a m G k (by have := hbig k; omega)]; exact h
    · rw [Axes.sub_node a m G k (by have := hbig k; omega)]
      rwa [show a k + m k - 1 - 1 = a k + (m k - 2) by have := hbig k; omega] at h
  choose c hc ha hm using hcell
  have hc' : ∀ k, InCell (G.size k) (G.node k) (x k) (a k + c k) := by
    intro k
    obtain ⟨h1, h2, h3⟩ := hc k
    rw [Axes.sub_node a m G k (by omega)] at h2
    rw [Axes.sub_node a m G k h1] at h3
    have := (hs k).1
    have := ha k
    have := hm k
    refine ⟨by omega, ?_, ?_⟩
    · rcases h2 with h2 | h2
      · left; omega
      · exact .inr h2
    · rcases h3 with h3 | h3
      · left; omega
      · exact .inr h3
  refine ⟨_, multicubicAt_eq e he fma G vals lin hG g hg x hx _ hc', ?_⟩
  rw [multicubicAt_eq e' he' fma' _ vals' lin hG' _ hg' x
    (sub_fits hG (by omega) hs (by decide) hx) c (fun k => by rw [hsz k]; exact hc k)]
  congr 1
  refine axisByAxis_shift a _ _ g fun k f => ?_
  rw [hsz k]
  exact cubicPiece_shift (hbig k) (hG.incr k) (hs k).1
    (fun i hi => Axes.sub_node a m G k hi) (fun _ _ => rfl) lin (hc k) (ha k) (hm k)

/-- C73, nearest-neighbor. -/
theorem C73_nearest (fma fma' : Bool) (G : Axes K N) (a m : Fin N → Nat)
    (vals vals' : List K) (hG : G.Valid 2 vals) (hG' : (G.sub a m).Valid 2 vals')
    (g : (Fin N → Nat) → K) (hg : Samples G.size vals g)
    (hg' : Samples (G.sub a m).size vals' fun loc => g fun k => a k + loc k)
    (x : Fin N → K) (hs : G.Covers 0 a m x) (hx : G.Representable x) :
    ∃ y, nearestAt fma G vals x = .ok y ∧ nearestAt fma' (G.sub a m) vals' x = .ok y := by
  have hsz := Axes.sub_size a m G fun k => (hs k).1
  have hn : ∀ k : Fin N, ∃ l, IsNearest ((G.sub a m).size k) ((G.sub a m).node k) (x k) l :=
    fun k => exists_isNearest (hG'.big k) (hG'.incr k) (x k)
  choose loc hloc using hn
  refine ⟨_, nearestAt_eq fma G vals hG g hg _ hx (fun k => a k + loc k) fun k => ?_,
    nearestAt_eq fma' _ vals' hG' _ hg' x (sub_fits hG le_rfl hs (by decide) hx) loc hloc⟩
  have h := hloc k
  rw [hsz k] at h
  obtain ⟨s1, s2, s3⟩ := hs k
  exact nearest_shift (hG.incr k) s1 (fun i hi => Axes.sub_node a m G k hi) s2
    (by rwa [Nat.sub_zero] at s3) h

/-! ### Refining a table -/

/-- C74: let every node of the grid `G` on every axis also be a node of the grid `G'` (of the same
or the other kind), and let the table on `G'` hold the values of the interpolant of `G` at the
nodes of `G'`. Then both give the same result everywhere. -/
theorem C74_refine (e e' e'' : Evaluator) (he : e.Fits N) (he' : e'.Fits N) (he'' : e''.Fits N)
    (fma fma' fma'' : Bool) (G G' : Axes K N)
    (vals vals' : List K) (hG : G.Valid 2 vals) (hG' : G'.Valid 2 vals')
    (hnodes : ∀ k, ∀ i < G.size k, ∃ i' < G'.size k, G'.node k i' = G.node k i)
    (g' : (Fin N → Nat) → K) (hg' : Samples G'.size vals' g')
    (hval : ∀ loc : Fin N → Nat, (∀ k, loc k < G'.size k) →
      multilinearAt e fma G vals (fun k => G'.node k (loc k)) = .ok (g' loc))
    (x : Fin N → K) (hx : G.Representable x) (hx' : G'.Representable x) :
    ∃ y, multilinearAt e'' fma'' G vals x = .ok y ∧ multilinearAt e' fma' G' vals' x = .ok y := by
  obtain ⟨c', hc'⟩ := hG'.cells le_rfl x
  have hcell := fun k => refined_cell (hG.big k) (hG.incr k) (hG'.incr k) (hnodes k) (hc' k)
  choose c hc hl hr using hcell
  have hg := samples_valAt 0 _ _ hG.len
  refine ⟨_, multilinearAt_eq e'' he'' fma'' G vals hG _ hg x hx c hc, ?_⟩
  rw [multilinearAt_eq e' he' fma' G' vals' hG' g' hg' x hx' c' hc']
  congr 1
  -- the interpolant of `G` in its cell `c`, as a function of the observation
  have e1 : axisByAxis (fun k f => linPiece (G'.node k) f (c' k) (x k)) g' =
      axisByAxis (fun k f => linPiece (G'.node k) f (c' k) (x k)) fun loc =>
        (fun y : Fin N → K => axisByAxis (fun k f => linPiece (G.node k) f (c k) (y k))
          (valAt 0 G.size vals)) fun k => G'.node k (loc k) := by
    refine axisByAxis_rel (fun a b => a = b) (fun k i => i = c' k ∨ i = c' k + 1) _ _ _ _ ?_ ?_
    · intro k f f' hf
      exact linPiece_congr (hf _ (.inl rfl)) (hf _ (.inr rfl))
    · intro loc hloc
      have hlt : ∀ k, loc k < G'.size k := fun k => by
        have := (hc' k).1
        rcases hloc k with h | h <;> omega
      have h1 := hval loc hlt
      have hfit : G.Representable fun k => G'.node k (loc k) := by
        by_contra hh
        rw [multilinearAt_err e he fma G vals hG _ hh] at h1
        cases h1
      rw [multilinearAt_eq e he fma G vals hG _ hg _ hfit c fun k => ?_] at h1
      · exact (Res.ok.inj h1).symm
      · rcases hloc k with h | h
        · rw [h]; exact hl k
        · rw [h]; exact hr k
  rw [e1]
  refine axisByAxis_reproduce (fun φ => ∃ a b, ∀ z, φ z = a + b * z) _ G'.node x
    (fun y : Fin N → K => axisByAxis (fun k f => linPiece (G.node k) f (c k) (y k))
      (valAt 0 G.size vals))
    (fun k φ hφ => linPiece_affine (hG'.incr k) (hc' k).1 hφ) fun k y => ?_
  exact axisByAxis_affine_coord G.node c _ k y

end

section Examples

/-- C73: the nodes 1, 2, 3 of axis 0 and 0, 1 of axis 1 of a 5×4 table. The observation is in the
range of the part on axis 0 and below the whole table on axis 1. -/
example :
    let vals := exSample exRectilinear4 fun x => x 0 ^ 2 * x 1 + x 1 ^ 2
    let vals' : List ℚ := [2, 12, 17, 57, 26, 84]
    let G' := exRectilinear4.sub ![1, 0] ![3, 2]
    exRectilinear4.Valid 2 vals ∧ G'.Valid 2 vals' ∧
      Samples G'.size vals'
        (fun loc => valAt 0 exRectilinear4.size vals fun k => ![1, 0] k + loc k) ∧
      (∀ k, ![1, 0] k + ![3, 2] k ≤ exRectilinear4.size k) ∧
      exRectilinear4.node 0 1 ≤ 3 ∧ 3 ≤ exRectilinear4.node 0 3 ∧
      multilinearAt .flat false exRectilinear4 vals ![3, -1] = .ok (-18) ∧
      multilinearAt .flat false G' vals' ![3, -1] = .ok (-18) ∧
      nearestAt false exRectilinear4 vals ![3, -1] = .ok 17 ∧
      nearestAt false G' vals' ![3, -1] = .ok 17 := by
  refine ⟨valid_of_check ?_, valid_of_check ?_, samples_of_check ?_, ?_⟩ <;> decide +kernel

/-- C73, multicubic: a part of 4 of the 5 nodes of axis 0 gives the same result between its
second and third node (in fact up to its end, which is the end of the axis), and another one
outside. -/
example :
    let vals := exSample exRegular4 fun x => x 0 ^ 3 * x 1 + x 1 ^ 2
    let vals' := vals.drop 4
    let G' := exRegular4.sub ![1, 0] ![4, 4]
    exRegular4.Valid 4 vals ∧ G'.Valid 4 vals' ∧
      Samples G'.size vals'
        (fun loc => valAt 0 exRegular4.size vals fun k => ![1, 0] k + loc k) ∧
      (∀ k, ![1, 0] k + ![4, 4] k ≤ exRegular4.size k) ∧ ![1, 0] 0 + ![4, 4] 0 = exRegular4.size 0 ∧
      exRegular4.node 0 (1 + 1) ≤ 5/2 ∧
      multicubicAt .flat false exRegular4 vals false ![5/2, 2] =
        multicubicAt .flat false G' vals' false ![5/2, 2] ∧
      multicubicAt .flat false exRegular4 vals false ![3/2, 2] ≠
        multicubicAt .flat false G' vals' false ![3/2, 2] := by
  refine ⟨valid_of_check ?_, valid_of_check ?_, samples_of_check ?_, ?_⟩ <;> decide +kernel

/-- C74: a regular grid refined to a rectilinear one with extra nodes, one of them outside. -/
example :
    let G' : Axes ℚ 2 := .rectilinear ![[0, 1/2, 1, 2, 5], [1, 2, 3]]
    let F : (Fin 2 → ℚ) → ℚ := fun x => x 0 + 2 * x 1 + 3 * x 0 * x 1
    let vals' := exSample G' F
    exRegular.Valid 2 exVals ∧ G'.Valid 2 vals' ∧
      (∀ k, ∀ i < exRegular.size k, ∃ i' < G'.size k, G'.node k i' = exRegular.node k i) ∧
      Samples G'.size vals' (valAt 0 G'.size vals') ∧
      (∀ loc : (k : Fin 2) → Fin (G'.size k),
        multilinearAt .flat false exRegular exVals (fun k => G'.node k (loc k).val) =
          .ok (valAt 0 G'.size vals' fun k => (loc k).val)) ∧
      exRegular.Representable ![4, 5/2] ∧
      multilinearAt .flat false exRegular exVals ![4, 5/2] = .ok 39 ∧
      multilinearAt .flat false G' vals' ![4, 5/2] = .ok 39 := by
  refine ⟨valid_of_check ?_, valid_of_check ?_, ?_, samples_of_check ?_, ?_⟩ <;> decide +kernel

end Examples

end Interpn
