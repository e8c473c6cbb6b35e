import Verif.Spec.Grid1D
import Verif.Lemmas.OneDim
import Verif.Props.OneDim
import Verif.Props.Linearity

/-! C40–C43: what the 1-D interpolators compute in exact arithmetic. -/

set_option autoImplicit false
set_option linter.unusedSectionVars false

namespace Interpn
open FloatOps

section
variable {K : Type} [Field K] [LinearOrder K] [IsStrictOrderedRing K] [FloorRing K]
attribute [local instance] exactOps

/-- Where a point lies relative to the grid range. -/
def extrapOf (lo hi x : K) : Extrap :=
  if x < lo then .outsideLow else if hi < x then .outsideHigh else .inside

theorem extrapLH_exact (lo hi x : K) : extrapLH lo hi x = extrapOf lo hi x := by
  unfold extrapLH extrapOf; simp only [exact_lt, decide_eq_true_iff]

theorem extrapHL_exact {lo hi : K} (h : lo ≤ hi) (x : K) : extrapHL lo hi x = extrapOf lo hi x := by
  unfold extrapHL extrapOf
  simp only [exact_lt, decide_eq_true_iff]
  by_cases h1 : x < lo
  · rw [if_neg (by intro h2; exact absurd (h1.trans_le h) (not_lt.2 h2.le)), if_pos h1, if_pos h1]
  · rw [if_neg h1, if_neg h1]

variable {G : Axes K 1} {vals : List K}

theorem valid_length (hG : G.Valid 2 vals) : vals.length = G.size 0 := by
  rw [hG.len]; simp

/-- The two samples used at `x`, for either grid kind. -/
theorem interp1DAt_sample (kind : Kind1D) (fma : Bool) (hG : G.Valid 2 vals) (x : K)
    (hx : G.Representable fun _ => x) :
    ∃ c, InCell (G.size 0) (G.node 0) x c ∧
      (∀ dims starts steps, G = .regular dims starts steps →
        c + 2 = G.size 0 ∨ x < G.node 0 (c + 1)) ∧
      (∀ grids, G = .rectilinear grids → c = 0 ∨ G.node 0 c < x) ∧
      interp1DAt kind fma G vals x = kind.evalOne fma (fun _ => .ok
        ⟨G.node 0 c, vals.getD c 0, G.node 0 (c + 1), vals.getD (c + 1) 0,
          extrapOf (G.node 0 0) (G.node 0 (G.size 0 - 1)) x⟩) x := by
  have hl := valid_length hG
  have h2 : 2 ≤ vals.length := hl ▸ hG.big 0
  have hstep : ∀ (at' at'' : K → Res (GridSample K)), at' x = at'' x →
      kind.evalOne fma at' x = kind.evalOne fma at'' x := by
    intro at' at'' h
    cases kind <;>
      simp only [Kind1D.evalOne, Linear1D.evalOne, LinearHoldLast1D.evalOne, Left1D.evalOne,
        Right1D.evalOne, Nearest1D.evalOne, h]
  cases G with
  | regular dims starts steps =>
    have hs := hG.step_pos le_rfl 0
    have hl' : vals.length = dims 0 := hl
    have h2' : 2 ≤ dims 0 := hG.big 0
    have hic := regular_inCell (dim := dims 0) (start := starts 0) (x := x) hs h2'
    refine ⟨clampIdx ⌊(x - starts 0) / steps 0⌋ (dims 0 - 2), hic, ?_, (fun _ h => by injection h), ?_⟩
    · intro _ _ _ _
      by_cases h : ((dims 0 - 2 : Nat) : Int) ≤ ⌊(x - starts 0) / steps 0⌋
      · left; show _ = dims 0; unfold clampIdx; omega
      · right
        have h3 : ⌊(x - starts 0) / steps 0⌋ <
            ((clampIdx ⌊(x - starts 0) / steps 0⌋ (dims 0 - 2) + 1 : Nat) : Int) := by
          unfold clampIdx; omega
        have := (floor_lt_iff' hs _).1 h3
        simpa [Axes.node] using this
    · simp only [interp1DAt, regular1DAt]
      rw [RegularGrid1D.new_ok (m := ((vals.length - 1 : Nat) : K)) (by omega) rfl, Res.ok_bind]
      apply hstep
      have hlo : starts 0 ≤ starts 0 + steps 0 * ((vals.length - 1 : Nat) : K) :=
        le_add_of_nonneg_right (mul_nonneg hs.le (Nat.cast_nonneg _))
      rw [RegularGrid1D.at_ok (z := ⌊(x - starts 0) / steps 0⌋)
        (f := ((clampIdx ⌊(x - starts 0) / steps 0⌋ (vals.length - 2) : Nat) : K)) h2 hG.slice
        (by rw [rawCell_exact, if_pos (show isizeMin ≤ _ ∧ _ ≤ isizeMax from hx 0)]) rfl]
      have e1 := extrapHL_exact hlo x
      congr 2
      · rw [hl']; rfl
      · rw [hl']; rfl
      · rw [hl']; simp only [Axes.node]; push_cast
        show starts 0 + steps 0 * _ + steps 0 = _
        ring
      · rw [hl']; rfl
      · refine e1.trans ?_
        rw [hl']
        simp [Axes.node, Axes.size]
  | rectilinear grids =>
    have hl' : vals.length = (grids 0).length := hl
    have h2' : 2 ≤ (grids 0).length := hG.big 0
    have hsl : IsSlice (grids 0) := by
      have := hG.slice; unfold IsSlice at *; omega
    refine ⟨linCell (grids 0) x, rectilinear_inCell h2' (hG.incr 0) x, (fun _ _ _ h => by injection h),
      ?_, ?_⟩
    · intro _ _
      by_cases h : cellsBelow (grids 0) x ≤ 1
      · left; unfold linCell; omega
      · right
        have hle := cellsBelow_le (grids 0) x
        exact (cellsBelow_exact (hG.incr 0) x _ (by unfold linCell; omega)).2
          (by unfold linCell; omega)
    · simp only [interp1DAt, rectilinear1DAt]
      rw [(C45_rectilinear_new (grids 0) vals).1 hl'.symm h2', Res.ok_bind]
      apply hstep
      rw [RectilinearGrid1D.at_ok h2' hsl hl', extrapLH_exact]
      rfl

theorem getD_samples (hG : G.Valid 2 vals) :
    Samples G.size vals fun loc => vals.getD (loc 0) 0 := by
  intro loc hl
  have h0 : loc 0 < vals.length := by rw [valid_length hG]; exact hl 0
  have : cIndex G.size loc = loc 0 := by simp [cIndex]
  simp only [this]
  rw [List.getElem?_eq_getElem h0, List.getD_eq_getElem _ _ h0]

theorem linear1_exact (fma : Bool) (p f : Nat → K) (c : Nat) (ex : Extrap) (x : K) :
    linear1 fma ⟨p c, f c, p (c + 1), f (c + 1), ex⟩ x = linPiece p f c x := by
  have h : f c + (f (c + 1) - f c) / (p (c + 1) - p c) * (x - p c) = linPiece p f c x := by
    unfold linPiece; ring
  have h' : (f (c + 1) - f c) / (p (c + 1) - p c) * (x - p c) + f c = linPiece p f c x := by
    rw [← h]; ring
  cases fma with
  | true => exact h'
  | false => exact h

theorem interp1DAt_linear (fma : Bool) (hG : G.Valid 2 vals) (x : K)
    (hx : G.Representable fun _ => x) {c : Nat} (hc : InCell (G.size 0) (G.node 0) x c) :
    interp1DAt .linear fma G vals x =
      .ok (linPiece (G.node 0) (fun i => vals.getD i 0) c x) := by
  obtain ⟨d, hd, _, _, h⟩ := interp1DAt_sample .linear fma hG x hx
  rw [h]
  show Res.ok (linear1 fma ⟨_, _, _, _, _⟩ x) = _
  rw [linear1_exact fma (G.node 0) (fun i => vals.getD i 0) d]
  rw [linPiece_unique (hG.incr 0) _ hd hc]

/-- C40: `Linear1D` agrees with the N = 1 multilinear interpolators on the same grid. -/
theorem C40_linear (e : Evaluator) (he : e.Fits 1) (fma fma' : Bool) (hG : G.Valid 2 vals) (x : K)
    (hx : G.Representable fun _ => x) :
    ∃ y, interp1DAt .linear fma G vals x = .ok y ∧
      multilinearAt e fma' G vals (fun _ => x) = .ok y := by
  obtain ⟨c, hc⟩ := exists_inCell (p := G.node 0) (hG.big 0) x
  refine ⟨_, interp1DAt_linear fma hG x hx hc, ?_⟩
  rw [multilinearAt_eq e he fma' G vals hG _ (getD_samples hG) _ hx (fun _ => c)
    (fun k => by rw [Subsingleton.elim k 0]; exact hc),
    axisByAxis_one _ fun i => vals.getD i 0]

/-- `x` moved to the nearest end of the grid range if it is outside. -/
def clampTo (lo hi x : K) : K := max lo (min x hi)

theorem clamp_fits (hG : G.Valid 2 vals) (x : K) (hx : G.Representable fun _ => x) :
    G.Representable fun _ => clampTo (G.node 0 0) (G.node 0 (G.size 0 - 1)) x := by
  have h2 := hG.big 0
  have hnode : ∀ i < G.size 0, G.Representable fun _ => G.node 0 i := fun i hi => by
    have := hG.node_fits le_rfl (loc := fun _ => i)
      (fun k => by rw [Subsingleton.elim k 0]; exact hi) isizeMin (by decide)
    have e : (fun k => G.node k i) = fun _ => G.node 0 i :=
      funext fun k => by rw [Subsingleton.elim k 0]
    rwa [e] at this
  have hn0 := hnode 0 (by omega)
  have hn1 := hnode (G.size 0 - 1) (by omega)
  unfold clampTo
  rcases max_choice (G.node 0 0) (min x (G.node 0 (G.size 0 - 1))) with h | h
  · rw [h]; exact hn0
  · rw [h]
    rcases min_choice x (G.node 0 (G.size 0 - 1)) with h | h
    · rw [h]; exact hx
    · rw [h]; exact hn1

theorem inCell_below {n : Nat} {p : Nat → K} {x : K} {c : Nat} (hi : Incr n p)
    (hc : InCell n p x c) (h : x < p 0) : c = 0 := by
  rcases hc.2.1 with h1 | h1
  · exact h1
  · have := hi.le (Nat.zero_le c) (by have := hc.1; omega)
    exact absurd (h.trans_le this) (not_lt.2 h1)

theorem inCell_above {n : Nat} {p : Nat → K} {x : K} {c : Nat} (hi : Incr n p)
    (hc : InCell n p x c) (h : p (n - 1) < x) : c + 2 = n := by
  rcases hc.2.2 with h1 | h1
  · exact h1
  · have := hi.le (show c + 1 ≤ n - 1 by have := hc.1; omega) (by have := hc.1; omega)
    exact absurd (this.trans_lt h) (not_lt.2 h1)

/-- C41: `LinearHoldLast1D` below the grid is the first value, above it the last value, and inside
the range it is `Linear1D`. -/
theorem C41_cases (fma : Bool) (hG : G.Valid 2 vals) (x : K) (hx : G.Representable fun _ => x) :
    (x ≤ G.node 0 0 → interp1DAt .linearHoldLast fma G vals x = .ok (vals.getD 0 0)) ∧
    (G.node 0 (G.size 0 - 1) ≤ x →
      interp1DAt .linearHoldLast fma G vals x = .ok (vals.getD (G.size 0 - 1) 0)) ∧
    (InRange (G.size 0) (G.node 0) x →
      interp1DAt .linearHoldLast fma G vals x = interp1DAt .linear fma G vals x) := by
  obtain ⟨c, hc, _, _, h⟩ := interp1DAt_sample .linearHoldLast fma hG x hx
  have hn := hG.big 0
  have hi := hG.incr 0
  have h01 := hi.lt (show 0 < G.size 0 - 1 by omega) (by omega)
  have hin : InRange (G.size 0) (G.node 0) x →
      interp1DAt .linearHoldLast fma G vals x = interp1DAt .linear fma G vals x := by
    intro hr
    have : extrapOf (G.node 0 0) (G.node 0 (G.size 0 - 1)) x = .inside := by
      unfold extrapOf; rw [if_neg (not_lt.2 hr.1), if_neg (not_lt.2 hr.2)]
    rw [h, this, interp1DAt_linear fma hG x hx hc]
    show Res.ok (linear1 fma ⟨_, _, _, _, _⟩ x) = _
    rw [linear1_exact fma (G.node 0) (fun i => vals.getD i 0) c]
  refine ⟨fun hlo => ?_, fun hhi => ?_, hin⟩
  · rcases hlo.lt_or_eq with h1 | h1
    · have : extrapOf (G.node 0 0) (G.node 0 (G.size 0 - 1)) x = .outsideLow := by
        unfold extrapOf; rw [if_pos h1]
      rw [h, this, inCell_below hi hc h1]; rfl
    · subst h1
      rw [hin ⟨le_rfl, h01.le⟩, interp1DAt_linear fma hG _ hx hc,
        linPiece_node hi (fun i => vals.getD i 0) (i := 0) (by omega) hc]
  · rcases hhi.lt_or_eq with h1 | h1
    · have : extrapOf (G.node 0 0) (G.node 0 (G.size 0 - 1)) x = .outsideHigh := by
        unfold extrapOf; rw [if_neg (not_lt.2 (h01.trans h1).le), if_pos h1]
      have e := inCell_above hi hc h1
      rw [h, this, show G.size 0 - 1 = c + 1 by omega]; rfl
    · subst h1
      rw [hin ⟨h01.le, le_rfl⟩, interp1DAt_linear fma hG _ hx hc,
        linPiece_node hi (fun i => vals.getD i 0) (i := G.size 0 - 1) (by omega) hc]

/-- C41: `LinearHoldLast1D` is `Linear1D` at the observation clamped into the grid range. -/
theorem C41_clamp (fma : Bool) (hG : G.Valid 2 vals) (x : K) (hx : G.Representable fun _ => x) :
    interp1DAt .linearHoldLast fma G vals x =
      interp1DAt .linear fma G vals (clampTo (G.node 0 0) (G.node 0 (G.size 0 - 1)) x) := by
  have hf := clamp_fits hG x hx
  have hn := hG.big 0
  have h01 := (hG.incr 0).lt (show 0 < G.size 0 - 1 by omega) (by omega)
  obtain ⟨h1, h2, h3⟩ := C41_cases fma hG x hx
  obtain ⟨c1, c2, c3⟩ := C41_cases fma hG _ hf
  have hr : InRange (G.size 0) (G.node 0) (clampTo (G.node 0 0) (G.node 0 (G.size 0 - 1)) x) := by
    unfold clampTo
    exact ⟨le_max_left _ _, max_le h01.le (min_le_right _ _)⟩
  rw [← c3 hr]
  rcases le_total x (G.node 0 0) with h | h
  · have : clampTo (G.node 0 0) (G.node 0 (G.size 0 - 1)) x = G.node 0 0 := by
      unfold clampTo; exact max_eq_left ((min_le_left _ _).trans h)
    rw [h1 h, c1 this.le]
  · rcases le_total (G.node 0 (G.size 0 - 1)) x with h' | h'
    · have : clampTo (G.node 0 0) (G.node 0 (G.size 0 - 1)) x = G.node 0 (G.size 0 - 1) := by
        unfold clampTo; rw [min_eq_right h', max_eq_right h01.le]
      rw [h2 h', c2 this.ge]
    · have : clampTo (G.node 0 0) (G.node 0 (G.size 0 - 1)) x = x := by
        unfold clampTo; rw [min_eq_left h', max_eq_right h]
      rw [this]

/-- C41: it never leaves the range of the values. -/
theorem C41_range (fma : Bool) (hG : G.Valid 2 vals) (x : K) (hx : G.Representable fun _ => x)
    (lo hi : K) (hv : ∀ y ∈ vals, lo ≤ y ∧ y ≤ hi) :
    ∃ y, interp1DAt .linearHoldLast fma G vals x = .ok y ∧ lo ≤ y ∧ y ≤ hi := by
  have hf := clamp_fits hG x hx
  have hn := hG.big 0
  have h01 := (hG.incr 0).lt (show 0 < G.size 0 - 1 by omega) (by omega)
  have hr : InRange (G.size 0) (G.node 0) (clampTo (G.node 0 0) (G.node 0 (G.size 0 - 1)) x) := by
    unfold clampTo
    exact ⟨le_max_left _ _, max_le h01.le (min_le_right _ _)⟩
  rw [C41_clamp fma hG x hx]
  obtain ⟨c, hc⟩ := exists_inCell (p := G.node 0) (hG.big 0)
    (clampTo (G.node 0 0) (G.node 0 (G.size 0 - 1)) x)
  have hl := valid_length hG
  have hmem : ∀ i < G.size 0, vals.getD i 0 ∈ vals := fun i hi => by
    rw [List.getD_eq_getElem _ _ (hl ▸ hi)]; exact List.getElem_mem _
  refine ⟨_, interp1DAt_linear fma hG _ hf hc, ?_⟩
  exact linPiece_between (hG.incr 0) hc hr (hv _ (hmem _ (by have := hc.1; omega)))
    (hv _ (hmem _ hc.1))

/-! ### Holding the left or right value -/

theorem cell_eq_of_right_open {n : Nat} {p : Nat → K} {x : K} {c i : Nat} (hi : Incr n p)
    (hc : InCell n p x c) (hopen : c + 2 = n ∨ x < p (c + 1)) (h0 : p i ≤ x)
    (h1 : x < p (i + 1)) (hin : i + 1 < n) : c = i := by
  rcases Nat.lt_trichotomy c i with h | h | h
  · have := hi.le (show c + 1 ≤ i from h) (by omega)
    rcases hopen with h2 | h2
    · omega
    · exact absurd (this.trans h0) (not_le.2 h2)
  · exact h
  · have := hi.le (show i + 1 ≤ c from h) (by have := hc.1; omega)
    exact absurd ((hc.2.1.resolve_left (by omega)).trans_lt h1) (not_lt.2 this)

theorem cell_eq_of_left_open {n : Nat} {p : Nat → K} {x : K} {c i : Nat} (hi : Incr n p)
    (hc : InCell n p x c) (hopen : c = 0 ∨ p c < x) (h0 : p i < x)
    (h1 : x ≤ p (i + 1)) (hin : i + 1 < n) : c = i := by
  rcases Nat.lt_trichotomy c i with h | h | h
  · have := hi.le (show c + 1 ≤ i from h) (by omega)
    have h2 := hc.2.2.resolve_left (by omega)
    exact absurd (h2.trans this) (not_le.2 h0)
  · exact h
  · have := hi.le (show i + 1 ≤ c from h) (by have := hc.1; omega)
    rcases hopen with h2 | h2
    · omega
    · exact absurd (h1.trans this) (not_le.2 h2)

section
variable {dims : Fin 1 → Nat} {starts steps : Fin 1 → K} {grids : Fin 1 → List K}

/-- C42: `Left1D` on a regular grid: the value of the last node at or before the observation,
the first value below the grid, the last value strictly above it; but exactly at the last node the
second-to-last value. -/
theorem C42_left_regular (fma : Bool) (hG : (Axes.regular dims starts steps).Valid 2 vals) (x : K)
    (hx : (Axes.regular dims starts steps).Representable fun _ => x) :
    let p := (Axes.regular dims starts steps).node 0
    let eval := interp1DAt .left fma (Axes.regular dims starts steps) vals x
    (x < p 0 → eval = .ok (vals.getD 0 0)) ∧
    (∀ i, i + 1 < dims 0 → p i ≤ x → x < p (i + 1) → eval = .ok (vals.getD i 0)) ∧
    (x = p (dims 0 - 1) → eval = .ok (vals.getD (dims 0 - 2) 0)) ∧
    (p (dims 0 - 1) < x → eval = .ok (vals.getD (dims 0 - 1) 0)) := by
  intro p eval
  obtain ⟨c, hc, ho, _, h⟩ := interp1DAt_sample .left fma hG x hx
  have ho := ho _ _ _ rfl
  have hi := hG.incr 0
  have hn := hG.big 0
  simp only [Axes.size] at hn hc ho h hi
  have h01 := hi.lt (show 0 < dims 0 - 1 by omega) (by omega)
  have hex : ∀ ex, extrapOf (p 0) (p (dims 0 - 1)) x = ex → eval = Left1D.evalOne (fun _ => .ok
      ⟨p c, vals.getD c 0, p (c + 1), vals.getD (c + 1) 0, ex⟩) x := by
    intro ex hex; rw [← hex]; exact h
  refine ⟨fun h1 => ?_, fun i hin h1 h2 => ?_, fun h1 => ?_, fun h1 => ?_⟩
  · rw [hex .outsideLow (by unfold extrapOf; rw [if_pos h1]), inCell_below hi hc h1]; rfl
  · have h3 : p 0 ≤ x := (hi.le (Nat.zero_le i) (by omega)).trans h1
    have h4 : x ≤ p (dims 0 - 1) :=
      h2.le.trans (hi.le (show i + 1 ≤ dims 0 - 1 by omega) (by omega))
    rw [hex .inside (by unfold extrapOf; rw [if_neg (not_lt.2 h3), if_neg (not_lt.2 h4)]),
      cell_eq_of_right_open hi hc ho h1 h2 hin]; rfl
  · have hcl : c = dims 0 - 2 := by
      rcases ho with h2 | h2
      · omega
      · exact absurd (hi.le (show c + 1 ≤ dims 0 - 1 by have := hc.1; omega) (by omega))
          (not_le.2 (h1.symm.trans_lt h2))
    rw [hex .inside (by unfold extrapOf; rw [h1, if_neg (not_lt.2 h01.le), if_neg (lt_irrefl _)]),
      hcl]; rfl
  · rw [hex .outsideHigh (by
      unfold extrapOf; rw [if_neg (not_lt.2 (h01.trans h1).le), if_pos h1]),
      show dims 0 - 1 = c + 1 by have := inCell_above hi hc h1; omega]; rfl

/-- C42: `Right1D` on a regular grid: the value of the first node strictly after the observation,
the first value below the grid, the last value at or above its end. -/
theorem C42_right_regular (fma : Bool) (hG : (Axes.regular dims starts steps).Valid 2 vals) (x : K)
    (hx : (Axes.regular dims starts steps).Representable fun _ => x) :
    let p := (Axes.regular dims starts steps).node 0
    let eval := interp1DAt .right fma (Axes.regular dims starts steps) vals x
    (x < p 0 → eval = .ok (vals.getD 0 0)) ∧
    (∀ i, i + 1 < dims 0 → p i ≤ x → x < p (i + 1) → eval = .ok (vals.getD (i + 1) 0)) ∧
    (p (dims 0 - 1) ≤ x → eval = .ok (vals.getD (dims 0 - 1) 0)) := by
  intro p eval
  obtain ⟨c, hc, ho, _, h⟩ := interp1DAt_sample .right fma hG x hx
  have ho := ho _ _ _ rfl
  have hi := hG.incr 0
  have hn := hG.big 0
  simp only [Axes.size] at hn hc ho h hi
  have h01 := hi.lt (show 0 < dims 0 - 1 by omega) (by omega)
  have hex : ∀ ex, extrapOf (p 0) (p (dims 0 - 1)) x = ex → eval = Right1D.evalOne (fun _ => .ok
      ⟨p c, vals.getD c 0, p (c + 1), vals.getD (c + 1) 0, ex⟩) x := by
    intro ex hex; rw [← hex]; exact h
  refine ⟨fun h1 => ?_, fun i hin h1 h2 => ?_, fun h1 => ?_⟩
  · rw [hex .outsideLow (by unfold extrapOf; rw [if_pos h1]), inCell_below hi hc h1]; rfl
  · have h3 : p 0 ≤ x := (hi.le (Nat.zero_le i) (by omega)).trans h1
    have h4 : x ≤ p (dims 0 - 1) :=
      h2.le.trans (hi.le (show i + 1 ≤ dims 0 - 1 by omega) (by omega))
    rw [hex .inside (by unfold extrapOf; rw [if_neg (not_lt.2 h3), if_neg (not_lt.2 h4)]),
      cell_eq_of_right_open hi hc ho h1 h2 hin]; rfl
  · have hcl : dims 0 - 1 = c + 1 := by
      rcases ho with h2 | h2
      · omega
      · exact absurd ((hi.le (show c + 1 ≤ dims 0 - 1 by have := hc.1; omega) (by omega)).trans h1)
          (not_le.2 h2)
    rw [hcl]
    have hns : ¬ x < p 0 := not_lt.2 (h01.le.trans h1)
    rcases lt_or_ge (p (dims 0 - 1)) x with h2 | h2
    · rw [hex .outsideHigh (by unfold extrapOf; rw [if_neg hns, if_pos h2])]; rfl
    · rw [hex .inside (by unfold extrapOf; rw [if_neg hns, if_neg (not_lt.2 h2)])]; rfl

/-- C42: `Left1D` on a rectilinear grid: the value of the last node strictly before the
observation, the first value at or below the start, the last value strictly above the grid. -/
theorem C42_left_rectilinear (fma : Bool) (hG : (Axes.rectilinear grids).Valid 2 vals) (x : K) :
    let p := (Axes.rectilinear grids).node 0
    let n := (grids 0).length
    let eval := interp1DAt .left fma (Axes.rectilinear grids) vals x
    (x ≤ p 0 → eval = .ok (vals.getD 0 0)) ∧
    (∀ i, i + 1 < n → p i < x → x ≤ p (i + 1) → eval = .ok (vals.getD i 0)) ∧
    (p (n - 1) < x → eval = .ok (vals.getD (n - 1) 0)) := by
  intro p n eval
  obtain ⟨c, hc, _, ho, h⟩ := interp1DAt_sample .left fma hG x trivial
  have ho := ho _ rfl
  have hi := hG.incr 0
  have hn : 2 ≤ n := hG.big 0
  simp only [Axes.size] at hc h hi
  have h01 := hi.lt (show 0 < n - 1 by omega) (by omega)
  have hex : ∀ ex, extrapOf (p 0) (p (n - 1)) x = ex → eval = Left1D.evalOne (fun _ => .ok
      ⟨p c, vals.getD c 0, p (c + 1), vals.getD (c + 1) 0, ex⟩) x := by
    intro ex hex; rw [← hex]; exact h
  refine ⟨fun h1 => ?_, fun i hin h1 h2 => ?_, fun h1 => ?_⟩
  · have hcl : c = 0 := by
      rcases ho with h2 | h2
      · exact h2
      · exact absurd (h1.trans (hi.le (Nat.zero_le c) (by have := hc.1; omega))) (not_le.2 h2)
    rcases lt_or_ge x (p 0) with h2 | h2
    · rw [hex .outsideLow (by unfold extrapOf; rw [if_pos h2]), hcl]; rfl
    · rw [hex .inside (by
        unfold extrapOf
        rw [if_neg (not_lt.2 h2), if_neg (not_lt.2 (h1.trans h01.le))]), hcl]; rfl
  · have h3 : p 0 ≤ x := (hi.le (Nat.zero_le i) (by omega)).trans h1.le
    have h4 : x ≤ p (n - 1) :=
      h2.trans (hi.le (show i + 1 ≤ n - 1 by omega) (show n - 1 < n by omega))
    rw [hex .inside (by unfold extrapOf; rw [if_neg (not_lt.2 h3), if_neg (not_lt.2 h4)]),
      cell_eq_of_left_open hi hc ho h1 h2 hin]; rfl
  · rw [hex .outsideHigh (by
      unfold extrapOf; rw [if_neg (not_lt.2 (h01.trans h1).le), if_pos h1]),
      show n - 1 = c + 1 by have := inCell_above hi hc h1; omega]; rfl

/-- C42: `Right1D` on a rectilinear grid: the value of the first node at or after the
observation, the first value strictly below the grid, the last value above it; but exactly at the
first node the second value. -/
theorem C42_right_rectilinear (fma : Bool) (hG : (Axes.rectilinear grids).Valid 2 vals) (x : K) :
    let p := (Axes.rectilinear grids).node 0
    let n := (grids 0).length
    let eval := interp1DAt .right fma (Axes.rectilinear grids) vals x
    (x < p 0 → eval = .ok (vals.getD 0 0)) ∧
    (x = p 0 → eval = .ok (vals.getD 1 0)) ∧
    (∀ i, i + 1 < n → p i < x → x ≤ p (i + 1) → eval = .ok (vals.getD (i + 1) 0)) ∧
    (p (n - 1) < x → eval = .ok (vals.getD (n - 1) 0)) := by
  intro p n eval
  obtain ⟨c, hc, _, ho, h⟩ := interp1DAt_sample .right fma hG x trivial
  have ho := ho _ rfl
  have hi := hG.incr 0
  have hn : 2 ≤ n := hG.big 0
  simp only [Axes.size] at hc h hi
  have h01 := hi.lt (show 0 < n - 1 by omega) (by omega)
  have hex : ∀ ex, extrapOf (p 0) (p (n - 1)) x = ex → eval = Right1D.evalOne (fun _ => .ok
      ⟨p c, vals.getD c 0, p (c + 1), vals.getD (c + 1) 0, ex⟩) x := by
    intro ex hex; rw [← hex]; exact h
  refine ⟨fun h1 => ?_, fun h1 => ?_, fun i hin h1 h2 => ?_, fun h1 => ?_⟩
  · rw [hex .outsideLow (by unfold extrapOf; rw [if_pos h1]), inCell_below hi hc h1]; rfl
  · have hcl : c = 0 := by
      rcases ho with h2 | h2
      · exact h2
      · exact absurd ((le_of_eq h1).trans (hi.le (Nat.zero_le c) (by have := hc.1; omega)))
          (not_le.2 h2)
    rw [hex .inside (by unfold extrapOf; rw [h1, if_neg (lt_irrefl _), if_neg (not_lt.2 h01.le)]),
      hcl]; rfl
  · have h3 : p 0 ≤ x := (hi.le (Nat.zero_le i) (by omega)).trans h1.le
    have h4 : x ≤ p (n - 1) :=
      h2.trans (hi.le (show i + 1 ≤ n - 1 by omega) (show n - 1 < n by omega))
    rw [hex .inside (by unfold extrapOf; rw [if_neg (not_lt.2 h3), if_neg (not_lt.2 h4)]),
      cell_eq_of_left_open hi hc ho h1 h2 hin]; rfl
  · rw [hex .outsideHigh (by
      unfold extrapOf; rw [if_neg (not_lt.2 (h01.trans h1).le), if_pos h1]),
      show n - 1 = c + 1 by have := inCell_above hi hc h1; omega]; rfl

end

/-! ### Nearest -/

/-- C43: `Nearest1D` returns the value at the closest node, the lowest on ties. -/
theorem C43_nearest (fma : Bool) (hG : G.Valid 2 vals) (x : K) (hx : G.Representable fun _ => x)
    (i : Nat) (hi : IsNearest (G.size 0) (G.node 0) x i) :
    interp1DAt .nearest fma G vals x = .ok (vals.getD i 0) := by
  obtain ⟨c, hc, _, _, h⟩ := interp1DAt_sample .nearest fma hG x hx
  have hn := (nearestOffset_exact (hG.incr 0) hc).unique hi
  have habs : ∀ y : K, FloatOps.abs y = |y| := fun y => by
    show (if 0 ≤ y then y else -y) = |y|
    split
    · next h => rw [abs_of_nonneg h]
    · next h => rw [abs_of_neg (not_le.1 h)]
  have hw : 0 < G.node 0 (c + 1) - G.node 0 c := sub_pos.2 (hG.incr 0 c hc.1)
  have hoff : nearestOffset ((x - G.node 0 c) / (G.node 0 (c + 1) - G.node 0 c)) =
      if |x - G.node 0 c| ≤ |x - G.node 0 (c + 1)| then 0 else 1 := by
    unfold nearestOffset half
    rw [exact_le]
    have : ((x - G.node 0 c) / (G.node 0 (c + 1) - G.node 0 c) ≤ (one : K) /. ((one : K) +. one)) ↔
        |x - G.node 0 c| ≤ |x - G.node 0 (c + 1)| := by
      show (x - G.node 0 c) / (G.node 0 (c + 1) - G.node 0 c) ≤ (1 : K) / (1 + 1) ↔ _
      rw [div_le_iff₀ hw, one_add_one_eq_two, ← sq_le_sq]
      generalize G.node 0 c = a at *
      generalize G.node 0 (c + 1) = b at *
      constructor
      · intro h1; nlinarith
      · intro h1
        by_contra h2
        rw [not_le] at h2
        nlinarith
    simp only [decide_eq_true_iff, this]
  rw [h, ← hn, hoff]
  show Res.ok (if FloatOps.abs (x - _) <=. FloatOps.abs (x - _) then _ else _) = _
  rw [habs, habs, exact_le]
  simp only [decide_eq_true_iff]
  split <;> rfl

/-- C43: `Nearest1D` agrees with the N = 1 nearest-neighbor interpolator on the same grid. -/
theorem C43_agree (fma fma' : Bool) (hG : G.Valid 2 vals) (x : K)
    (hx : G.Representable fun _ => x) :
    ∃ y, interp1DAt .nearest fma G vals x = .ok y ∧ nearestAt fma' G vals (fun _ => x) = .ok y := by
  obtain ⟨i, hi⟩ := exists_isNearest (hG.big 0) (hG.incr 0) x
  refine ⟨_, C43_nearest fma hG x hx i hi, ?_⟩
  exact nearestAt_eq fma' G vals hG _ (getD_samples hG) _ hx (fun _ => i)
    (fun k => by rw [Subsingleton.elim k 0]; exact hi)

end

section Examples

/-- A regular and a rectilinear 1-D grid with the same nodes 0, 2, 4, 6. -/
example :
    let vals : List ℚ := [5, 1, 8, 3]
    let R : Axes ℚ 1 := .regular ![4] ![0] ![2]
    let L : Axes ℚ 1 := .rectilinear ![[0, 2, 4, 6]]
    R.Valid 2 vals ∧ L.Valid 2 vals ∧ (R.Representable fun _ => 9) ∧
      interp1DAt .linear true R vals 9 = .ok (-9/2) ∧
      interp1DAt .linearHoldLast true R vals 9 = .ok 3 ∧
      interp1DAt .linearHoldLast true L vals 3 = .ok (9/2) ∧
      interp1DAt .left true R vals 4 = .ok 8 ∧ interp1DAt .left true L vals 4 = .ok 1 ∧
      interp1DAt .left true R vals 6 = .ok 8 ∧ interp1DAt .right true L vals 0 = .ok 1 ∧
      interp1DAt .nearest true R vals 3 = .ok 1 ∧ interp1DAt .nearest true L vals 3 = .ok 1 ∧
      IsNearest (R.size 0) (R.node 0) 3 1 := by
  refine ⟨valid_of_check ?_, valid_of_check ?_, ?_⟩ <;> decide +kernel

end Examples

end Interpn
