import Verif.Lemmas.RoundingRegular
import Verif.Lemmas.ExampleGrids
import Verif.Lemmas.RoundNum

/-! C66: end-to-end accuracy of multilinear interpolation on regular grids in rounded arithmetic,
for every float type satisfying the rounding model of `Spec/Rounding.lean`. -/

set_option autoImplicit false

namespace Interpn
open FloatOps

section
variable {T K : Type} [FloatOps T] [Field K] [LinearOrder K] [IsStrictOrderedRing K] [FloorRing K]
  {val : T → K} {fin : T → Prop} {u η Ω : K} {N : Nat}

/-- Multilinear interpolation of finite data on a regular grid, at an observation that is inside the
grid range or outside by at most `lam` steps: the result computed in rounded arithmetic is finite
and differs from the result of the same evaluation in exact arithmetic by at most the stated bound.
Rounding may select a cell that does not contain the observation; the bound covers this. `A` bounds
the coordinates of the nodes: unlike on rectilinear grids, the weights lose accuracy if the nodes
are large compared to the step. -/
theorem C66_regular (h : Rounds val fin u η Ω) (hcmp : ExactCompare val fin) {n : Nat}
    (hwhole : ExactWhole val fin n)
    (e : Evaluator) (he : e.Fits N) (fma : Bool) (dims : Fin N → Nat) (starts steps : Fin N → T)
    (vals : List T)
    (hG : (Axes.regular dims (fun k => val (starts k)) fun k => val (steps k)).Valid 2
      (vals.map val))
    (hdims : ∀ k, dims k ≤ n) (hfin : ∀ k, fin (starts k) ∧ fin (steps k))
    (A : Fin N → K) (hA : ∀ k, |val (starts k)| ≤ A k ∧
      |val (starts k) + val (steps k) * ((dims k - 1 : Nat) : K)| ≤ A k)
    (M : K) (hvals : ∀ v ∈ vals, fin v ∧ |val v| ≤ M)
    (x : Fin N → T) (hx : ∀ k, fin (x k)) (lam : K) (hlam : 0 ≤ lam)
    (hnear : ∀ k, NearRange (dims k) (fun i => val (starts k) + val (steps k) * (i : K)) lam
      (val (x k)))
    (hbounds : ∀ k, AxisInBounds u η Ω (A k) lam (val (steps k)) (val (x k)) (dims k))
    (L0 L : K) (hL0 : L0 = 1 + 2 * lam)
    (hL : ∀ k, L0 + axisDeviation u η (A k) lam (val (steps k)) (dims k) ≤ L)
    (hΩ : 2 * (1 + u) ^ 2 * (L * blendSize u η L M (N - 1)) + η ≤ Ω) :
    ∃ r y, multilinearRegularAt e fma dims starts steps vals x = .ok r ∧ fin r ∧
      multilinearAt e fma (.regular dims (fun k => val (starts k)) fun k => val (steps k))
        (vals.map val) (fun k => val (x k)) = .ok y ∧
      |val r - y| ≤ blendError u η L M N + (L ^ N - L0 ^ N) * M := by
  have hu := h.u_nonneg
  have hη := h.η_nonneg
  have hbig : ∀ k, 2 ≤ dims k := fun k => hG.big k
  have hpos : ∀ k, 0 < val (steps k) := fun k => by
    have := hG.increasing k 0 (hG.big k)
    simp only [Axes.node, Nat.cast_zero, mul_zero, add_zero, zero_add, Nat.cast_one, mul_one] at this
    linarith
  have hincr : ∀ k, Incr (dims k) (fun i : Nat => val (starts k) + val (steps k) * (i : K)) :=
    fun k i hi => hG.increasing k i hi
  have hvlen : vals.length = ∏ k, dims k := by
    have := hG.len; simpa [Axes.size] using this
  have hslice : IsSlice vals := by
    have := hG.slice; rw [isSlice_iff] at this ⊢; simpa using this
  have hacc : RegularAccepted 2 dims steps vals := by
    refine ⟨hslice, hvlen, hbig, fun k => ?_⟩
    exact (hcmp _ _ hwhole.zero.1 (hfin k).2).2 (by rw [hwhole.zero.2]; exact hpos k)
  -- the computed cells and weights
  have hax := fun k => rounds_regular_axis h hwhole (e.fmaLoc fma) (hdims k) (hbig k) (hfin k).1
    (hfin k).2 (hx k) (hpos k) hlam (hA k).1 (hA k).2 (hnear k) rfl rfl rfl (hbounds k).node
    (hbounds k).obs (hbounds k).position (hbounds k).weight (hbounds k).index
  choose c w q' hrun hcell hq' ht1 ht2 hwf hwe using hax
  -- the exact cells
  set G : Axes K N := .regular dims (fun k => val (starts k)) fun k => val (steps k) with hGdef
  have hd : ∀ k, InCell (dims k) (fun i : Nat => val (starts k) + val (steps k) * (i : K))
      (val (x k)) (clampIdx ⌊(val (x k) - val (starts k)) / val (steps k)⌋ (dims k - 2)) :=
    fun k => regular_inCell (hpos k) (hbig k)
  have hrep : G.Representable fun k => val (x k) := by
    intro k
    have h1 := hnear k
    have hd1 : (((dims k - 1 : Nat) : K)) = ((dims k - 2 : Nat) : K) + 1 := by
      have := hbig k
      rw [show dims k - 1 = dims k - 2 + 1 by omega]; push_cast; rfl
    have hnn : (0 : K) ≤ ((dims k - 2 : Nat) : K) := Nat.cast_nonneg _
    unfold NearRange at h1
    simp only [Nat.cast_zero, Nat.cast_one, mul_zero, mul_one, add_zero] at h1
    have hq1 : -lam ≤ (val (x k) - val (starts k)) / val (steps k) := by
      rw [le_div_iff₀ (hpos k)]; linarith [h1.1]
    have hq2 : (val (x k) - val (starts k)) / val (steps k) ≤ ((dims k - 1 : Nat) : K) + lam := by
      rw [div_le_iff₀ (hpos k)]
      have := h1.2
      rw [hd1] at this ⊢
      linarith
    have hδ0 := positionError_nonneg hu hη
      (Q := ((dims k - 1 : Nat) : K) + lam) (by rw [hd1]; linarith)
    have hix := (hbounds k).index
    constructor
    · rw [Int.le_floor]
      push_cast
      rw [hd1] at hix
      rw [hd1] at hδ0
      linarith
    · have h5 := Int.floor_le ((val (x k) - val (starts k)) / val (steps k))
      have h6 : ((⌊(val (x k) - val (starts k)) / val (steps k)⌋ : Int) : K) ≤ (isizeMax : Int) := by
        simp only [isizeMax]
        push_cast
        linarith
      exact_mod_cast h6
  have hL1 : 1 ≤ L0 := by rw [hL0]; linarith
  -- the data
  set g := valAt zero dims vals with hgdef
  have hs := samples_valAt zero dims vals hvlen
  rw [← hgdef] at hs
  have hgall : ∀ loc : Fin N → Nat, (∀ k, loc k < dims k) → fin (g loc) ∧ |val (g loc)| ≤ M :=
    fun loc hl => hvals _ (List.mem_of_getElem? (hs loc hl))
  have hgM : ∀ loc : Fin N → Nat, (∀ k, loc k = c k ∨ loc k = c k + 1) →
      fin (g loc) ∧ |val (g loc)| ≤ M := fun loc hl => hgall loc fun k => by
    have := (hcell k).1
    rcases hl k with h | h <;> omega
  have hM : 0 ≤ M := (abs_nonneg _).trans (hgM c fun k => .inl rfl).2
  have hs' : Samples G.size (vals.map val) (fun loc => val (g loc)) := by
    intro loc hl
    rw [List.getElem?_map]
    exact congrArg (Option.map val) (hs loc hl)
  have hex := multilinearAt_eq e he fma G (vals.map val) hG _ hs' (fun k => val (x k)) hrep _ hd
  -- the weights
  have hwL : ∀ k, |1 - val (w k)| + |val (w k)| ≤ L := by
    intro k
    have h1 := abs_le.1 (hwe k)
    have h2 := hL k
    unfold axisDeviation at h2
    have h3 := ht1 k
    have h4 := ht2 k
    have h5 := (abs_nonneg _).trans (hq' k)
    have h6 := (abs_nonneg _).trans (hwe k)
    rcases abs_cases (1 - val (w k)) with ⟨ha, -⟩ | ⟨ha, -⟩ <;>
      rcases abs_cases (val (w k)) with ⟨hb, -⟩ | ⟨hb, -⟩ <;> rw [ha, hb] <;> linarith
  have hLone : 1 ≤ L := by
    obtain ⟨k⟩ : Nonempty (Fin N) := ⟨⟨0, he.pos⟩⟩
    exact one_le_of_weight (hwL k)
  have hb1 := axisByAxis_perturb (L := L) (zero_le_one.trans hL1) hM (fun k i => i < dims k)
    (fun k f => linPiece (G.node k) f (clampIdx ⌊(val (x k) - val (starts k)) / val (steps k)⌋
      (dims k - 2)) (val (x k)))
    (fun k f => (1 - val (w k)) * f (c k) + val (w k) * f (c k + 1)) (fun loc => val (g loc))
    (fun k f f' ε hf => by
      have h1 := (abs_weight_nearRange hlam
        (weight_nearRange (hincr k) hlam (hd k) (hnear k))).1
      rw [← hL0] at h1
      have h2 := (hd k).1
      have h3 := blend_abs_le h1 (hf _ (Nat.lt_of_succ_lt h2)) (hf _ h2)
      show |linPiece (fun i : Nat => val (starts k) + val (steps k) * (i : K)) f _ _ -
        linPiece (fun i : Nat => val (starts k) + val (steps k) * (i : K)) f' _ _| ≤ _
      rw [linPiece_weights, linPiece_weights]
      refine le_of_eq_of_le (congrArg _ ?_) h3
      ring)
    (fun k B f hf => by
      have h2 := (hcell k).1
      exact blend_abs_le (hwL k) (hf _ (by omega)) (hf _ h2))
    (fun k B f hf => by
      have h1 := regular_rule_close (hpos k) (hd k) (hcell k) (hq' k) (hwe k) hf
      refine h1.trans ?_
      have h2 := hL k
      unfold axisDeviation at h2
      have hB : 0 ≤ B := (abs_nonneg _).trans (hf (c k) (by have := (hcell k).1; omega))
      exact mul_le_mul_of_nonneg_right (by linarith) hB)
    (fun loc hl => (hgall loc hl).2)
  have hb2 := rounds_blend h fma hLone hM w c g hwf hwL hgM hΩ
  have hrun' := (multilinearRegularAt_eq e he fma dims starts steps vals hslice x).1
    (fun k => (c k, w k)) hrun
  refine ⟨_, _, ?_, hb2.1, hex, ?_⟩
  · rw [hrun', hacc.check (by omega), Res.ok_bind]
  · exact (abs_sub_le _ _ _).trans (add_le_add hb2.2.2 hb1.2)

/-- The bound of `C66_regular` inside the grid range and without underflow: if no node is larger than
`κ` steps, at most `50 N (1 + κ) u M`, as long as `50 N (1 + κ) u ≤ 1`. -/
theorem C66_simple_bound (hu : 0 ≤ u) (M : K) (hM : 0 ≤ M) (hN0 : 0 < N) (dims : Fin N → Nat)
    (starts steps A : Fin N → K) (κ : K) (hsteps : ∀ k, 0 < steps k)
    (hA : ∀ k, |starts k| ≤ A k ∧ |starts k + steps k * ((dims k - 1 : Nat) : K)| ≤ A k)
    (hκ : ∀ k, A k ≤ κ * steps k) (hN : 50 * N * (1 + κ) * u ≤ 1) :
    ∃ L, (∀ k, 1 + axisDeviation u 0 (A k) 0 (steps k) (dims k) ≤ L) ∧
      blendError u 0 L M N + (L ^ N - 1 ^ N) * M ≤ 50 * N * (1 + κ) * u * M := by
  have hN1 : (1 : K) ≤ N := by exact_mod_cast hN0
  have hκ0 : 0 ≤ κ := by
    have h1 := (abs_nonneg _).trans (hA ⟨0, hN0⟩).1
    have h2 := hκ ⟨0, hN0⟩
    have := hsteps ⟨0, hN0⟩
    by_contra hneg
    nlinarith
  have huκ : 50 * (u + u * κ) ≤ 1 := by
    have : 0 ≤ u + u * κ := by positivity
    nlinarith
  have huκ0 : 0 ≤ u * κ := by positivity
  have hu50 : 50 * u ≤ 1 := by linarith
  have hα0 := blendCost_nonneg hu
  have hα : blendCost u ≤ 21 / 4 * u := by
    unfold blendCost
    nlinarith [mul_nonneg hu hu]
  have huu : u * u ≤ u / 50 := by nlinarith
  have hdev : ∀ k, axisDeviation u 0 (A k) 0 (steps k) (dims k) ≤ 6 * u + 24 * (u * κ) := by
    intro k
    have h1 := abs_le.1 (hA k).1
    have h2 := abs_le.1 (hA k).2
    have h3 := hsteps k
    have hn : ((dims k - 1 : Nat) : K) ≤ 2 * κ := by
      have : steps k * ((dims k - 1 : Nat) : K) ≤ steps k * (2 * κ) := by
        have := hκ k
        linarith
      exact le_of_mul_le_mul_left this h3
    have hn0 : (0 : K) ≤ ((dims k - 1 : Nat) : K) := Nat.cast_nonneg _
    have hAs : A k / steps k ≤ κ := by rw [div_le_iff₀ h3]; exact hκ k
    have hAs0 : 0 ≤ A k / steps k := div_nonneg ((abs_nonneg _).trans (hA k).1) h3.le
    unfold axisDeviation regularWeightError positionError nodeError
    simp only [add_zero, mul_zero]
    rw [mul_div_assoc]
    set a := A k / steps k
    set d := ((dims k - 1 : Nat) : K)
    have e1 : 2 * u + u ^ 2 ≤ 101 / 50 * u := by nlinarith
    have e2 : (2 * u + u ^ 2) * d ≤ 101 / 50 * u * (2 * κ) := by gcongr
    have e3 : (2 * u + u ^ 2) * (1 + (2 * u + u ^ 2) * d) ≤
        101 / 50 * u * (1 + 101 / 50 * u * (2 * κ)) := by gcongr
    have e4 : (1 + u) ^ 2 ≤ 1 + 101 / 50 * u := by nlinarith
    have e5 : 3 * u + 2 * u ^ 2 ≤ 152 / 50 * u := by nlinarith
    have e6 : (1 + u) ^ 2 * ((3 * u + 2 * u ^ 2) * a) ≤
        (1 + 101 / 50 * u) * (152 / 50 * u * κ) := by gcongr
    have e7 : u * (u * κ) ≤ 1 / 50 * (u * κ) := by nlinarith
    linarith
  set L : K := 1 + (6 * u + 24 * (u * κ)) with hL
  refine ⟨L, fun k => by have := hdev k; rw [hL]; linarith, ?_⟩
  have e : blendError u 0 L M N + (L ^ N - 1 ^ N) * M = ((L * (1 + blendCost u)) ^ N - 1) * M := by
    unfold blendError; ring
  rw [e]
  refine mul_le_mul_of_nonneg_right ?_ hM
  set β : K := 25 * (u + u * κ) with hβd
  have hβ0 : 0 ≤ β := by positivity
  have hβ : L * (1 + blendCost u) ≤ 1 + β := by
    have h1 : (6 * u + 24 * (u * κ)) * blendCost u ≤ (6 * u + 24 * (u * κ)) * (21 / 4 * u) := by
      gcongr
    have h2 : 6 * u + 24 * (u * κ) ≤ 1 / 2 := by linarith
    have h3 : (6 * u + 24 * (u * κ)) * (21 / 4 * u) ≤ 1 / 2 * (21 / 4 * u) := by gcongr
    rw [hL, hβd]
    linarith
  have hL0 : 0 ≤ L * (1 + blendCost u) := by
    have : 0 ≤ L := by rw [hL]; positivity
    positivity
  have hNβ : 2 * (N : K) * β ≤ 1 := by rw [hβd]; linarith
  have h1 := one_add_pow_le hβ0 N hNβ
  have h2 : (L * (1 + blendCost u)) ^ N ≤ (1 + β) ^ N := by gcongr
  have h3 : 2 * (N : K) * β = 50 * N * (1 + κ) * u := by rw [hβd]; ring
  linarith

end

/-! ### Concrete cases -/

section Examples
open ExtNum

/-- Floating-point numbers with 53 significant bits and exponents up to 1023 (rounding down). -/
@[reducible] def bits53R : FloatOps (ExtNum ℚ) := bitOps 53 1023
attribute [local instance] bits53R

/-- Values on a 3×2 grid. -/
def exFloatValsR : List (ExtNum ℚ) := [fin 2, fin 6, fin (-7), fin 16, fin 10, fin 3]

/-- Hypotheses of `C66_regular` are satisfied: on a 3×2 grid whose first axis has a step close to
`1/10` and at an observation just below node 1 of that axis, the result is correct to `10^-11`. -/
example : ∃ r y, multilinearRegularAt .flat false ![3, 2] ![fin 1, fin 1]
      ![fin (3602879701896396 / 2 ^ 55), fin 2] exFloatValsR
      ![fin (9907919180215090 / 2 ^ 53), fin (5 / 4)] = .ok r ∧
    multilinearAt .flat false (.regular ![3, 2] (fun k => value (![fin 1, fin 1] k))
      fun k => value (![fin (3602879701896396 / 2 ^ 55), fin 2] k))
      (exFloatValsR.map value)
      (fun k => value (![fin (9907919180215090 / 2 ^ 53), fin (5 / 4)] k)) = .ok y ∧
    |value r - y| ≤ 1 / 10 ^ 11 := by
  obtain ⟨r, y, h1, -, h2, h3⟩ := C66_regular (bitOps_rounds 53 1023) (bitOps_compare 53 1023)
    (bitOps_whole 53 1023 (2 ^ 53) le_rfl (Nat.pow_le_pow_right (by norm_num) (by norm_num))) .flat (by decide : (0 : Nat) < 2) false
    ![3, 2] ![fin 1, fin 1] ![fin (3602879701896396 / 2 ^ 55), fin 2] exFloatValsR
    (valid_of_check (by decide +kernel)) (by decide) (by decide +kernel) ![2, 3]
    (by decide +kernel) 16 (by decide +kernel)
    ![fin (9907919180215090 / 2 ^ 53), fin (5 / 4)] (by decide +kernel) 0 le_rfl
    (by unfold NearRange; decide +kernel)
    (fun k => by
      fin_cases k <;> constructor <;> simp only [nodeError, positionError] <;> decide +kernel)
    _ (1 + 1 / 10 ^ 13) rfl
    (by simp only [axisDeviation, regularWeightError, nodeError, positionError]; decide +kernel)
    (by unfold blendSize blendCost; decide +kernel)
  refine ⟨r, y, h1, h2, h3.trans ?_⟩
  norm_num [blendError, blendCost]

/-- Hypotheses of `C66_simple_bound` are satisfied. -/
example : ∃ L : ℚ, (∀ k : Fin 2, 1 + axisDeviation (2 / 2 ^ 53) 0 (![2, 3] k) 0 (![1 / 10, 2] k)
      (![3, 2] k) ≤ L) ∧
    blendError (2 / 2 ^ 53) 0 L 16 2 + (L ^ 2 - 1 ^ 2) * 16 ≤
      50 * (2 : Nat) * (1 + 20) * (2 / 2 ^ 53) * 16 :=
  C66_simple_bound (by norm_num) 16 (by norm_num) (by norm_num) ![3, 2] ![1, 1] ![1 / 10, 2] ![2, 3]
    20 (by decide +kernel) (by decide +kernel) (by decide +kernel) (by norm_num)

end Examples
end Interpn
