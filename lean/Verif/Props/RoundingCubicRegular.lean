import Verif.Lemmas.RoundingCubicRegular
import Verif.Lemmas.RoundNum
import Verif.Props.RoundingCubic

/-! C70: accuracy of multicubic interpolation on regular grids in rounded arithmetic. -/

set_option autoImplicit false
set_option linter.unusedSectionVars false

namespace Interpn
open FloatOps

section
attribute [local instance] exactOps
variable {T K : Type} [FloatOps T] [Field K] [LinearOrder K] [IsStrictOrderedRing K] [FloorRing K]
  {val : T → K} {fin : T → Prop} {u η Ω : K} {N : Nat}

/-- Multicubic interpolation of finite data at an observation in the range of a regular grid: the
result computed in rounded arithmetic is finite and differs from the result of the same evaluation
in exact arithmetic by at most `((5/4 + κ)^N - (5/4)^N) M`, where `M` bounds the values and `κ` is
the largest `cubicAxisDeviation` of an axis. Rounding may select a footprint, or a boundary rule,
that does not belong to the cell of the observation; the bound covers this. `A` bounds the
coordinates of the nodes. -/
theorem C70_regular (h : Rounds val fin u η Ω) (hcmp : ExactCompare val fin)
    (hsign : ExactSign val fin) (hT : TotalOfUsize T) {n : Nat} (hwhole : ExactWhole val fin n)
    (hu : u ≤ 1 / 1000) (e : Evaluator) (he : e.Fits N) (fma : Bool)
    (dims : Fin N → Nat) (starts steps : Fin N → T) (vals : List T) (lin : Bool)
    (hG : (Axes.regular dims (fun k => val (starts k)) fun k => val (steps k)).Valid 4
      (vals.map val))
    (hdims : ∀ k, dims k ≤ n) (hfin : ∀ k, fin (starts k) ∧ fin (steps k))
    (A : Fin N → K) (hA : ∀ k, |val (starts k)| ≤ A k ∧
      |val (starts k) + val (steps k) * ((dims k - 1 : Nat) : K)| ≤ A k)
    (M : K) (hvals : ∀ v ∈ vals, fin v ∧ |val v| ≤ M)
    (x : Fin N → T) (hx : ∀ k, fin (x k))
    (hin : ∀ k, InRange (dims k) (fun i => val (starts k) + val (steps k) * (i : K)) (val (x k)))
    (hbounds : ∀ k, AxisInBounds u η Ω (A k) 2 (val (steps k)) (val (x k)) (dims k))
    (hsmall : ∀ k, regularWeightError u η (A k) (val (steps k)) 3 +
      positionError u η ((dims k - 1 : Nat) : K) ≤ 1 / 100)
    (κ : K) (hκ : ∀ k, cubicAxisDeviation u η (A k) (val (steps k)) (dims k) ≤ κ)
    (hunder : 2 * η ≤ u) (hunderM : η ≤ u * M) (hover1 : 128 ≤ Ω)
    (hover : 128 * ((5 / 4 + κ) ^ (N - 1) * M) ≤ Ω) :
    ∃ r y, multicubicRegularAt e fma dims starts steps vals lin x = .ok r ∧ fin r ∧
      multicubicAt e fma (.regular dims (fun k => val (starts k)) fun k => val (steps k))
        (vals.map val) lin (fun k => val (x k)) = .ok y ∧
      |val r - y| ≤ ((5 / 4 + κ) ^ N - (5 / 4) ^ N) * M := by
  have hu0 := h.u_nonneg
  have hη := h.η_nonneg
  have hbig : ∀ k, 4 ≤ dims k := fun k => hG.big k
  have hpos : ∀ k, 0 < val (steps k) := fun k => hG.step_pos (by omega) k
  have hincr : ∀ k, Incr (dims k) (fun i : Nat => val (starts k) + val (steps k) * (i : K)) :=
    fun k i hi => hG.increasing k i hi
  have hvlen : vals.length = ∏ k, dims k := by
    have := hG.len; simpa [Axes.size] using this
  have hslice : IsSlice vals := by
    have := hG.slice; rw [isSlice_iff] at this ⊢; simpa using this
  have hacc : RegularAccepted 4 dims steps vals := by
    refine ⟨hslice, hvlen, hbig, fun k => ?_⟩
    exact (hcmp _ _ hwhole.zero.1 (hfin k).2).2 (by rw [hwhole.zero.2]; exact hpos k)
  have hω0 : ∀ k, 0 ≤ regularWeightError u η (A k) (val (steps k)) 3 := fun k => by
    have := nodeError_nonneg hu0 hη ((abs_nonneg _).trans (hA k).1)
    have := hpos k
    unfold regularWeightError
    positivity
  have hδ0 : ∀ k, 0 ≤ positionError u η ((dims k - 1 : Nat) : K) := fun k =>
    positionError_nonneg hu0 hη (Nat.cast_nonneg _)
  -- the computed footprints
  have hax := fun k => rounds_cubic_axis h hwhole (hdims k) (hbig k) (hfin k).1 (hfin k).2 (hx k)
    (hpos k) (hA k).1 (hA k).2 (hin k) (hbounds k) (by linarith [hsmall k, hω0 k])
  choose q' t hrun hq' htf hte hq0 hq1 hrep0 hrep1 using hax
  -- the exact cells
  set G : Axes K N := .regular dims (fun k => val (starts k)) fun k => val (steps k) with hGdef
  have hd : ∀ k, InCell (dims k) (fun i : Nat => val (starts k) + val (steps k) * (i : K))
      (val (x k)) (clampIdx ⌊(val (x k) - val (starts k)) / val (steps k)⌋ (dims k - 2)) :=
    fun k => regular_inCell (hpos k) (by have := hbig k; omega)
  have hrep : G.RepresentableCubic fun k => val (x k) := fun k => ⟨hrep0 k, hrep1 k⟩
  -- the data
  set g := valAt zero dims vals with hgdef
  have hs := samples_valAt zero dims vals hvlen
  rw [← hgdef] at hs
  have hgM : ∀ loc : Fin N → Nat, (∀ k, loc k < dims k) → fin (g loc) ∧ |val (g loc)| ≤ M :=
    fun loc hl => hvals _ (List.mem_of_getElem? (hs loc hl))
  have hM : 0 ≤ M := (abs_nonneg _).trans
    (hgM (fun _ => 0) fun k => by have := hbig k; omega).2
  have hs' : Samples G.size (vals.map val) (fun loc => val (g loc)) := by
    intro loc hl
    rw [List.getElem?_map]
    exact congrArg (Option.map val) (hs loc hl)
  have hex := multicubicAt_eq e he fma G (vals.map val) lin hG _ hs' (fun k => val (x k)) hrep _ hd
  have hmesh : ∀ k, MeshRatio (dims k) (fun i : Nat => val (starts k) + val (steps k) * (i : K)) 1 :=
    fun k i hi => by constructor <;> (push_cast; linarith)
  have hΛ : (1 : K) + 1 ^ 2 / (2 * (1 + 1)) = 5 / 4 := by norm_num
  have hκ0 : 0 ≤ κ := by
    obtain ⟨k⟩ : Nonempty (Fin N) := ⟨⟨0, he.pos⟩⟩
    refine le_trans ?_ (hκ k)
    have := hω0 k
    have := hδ0 k
    unfold cubicAxisDeviation
    positivity
  have hΛκ : 1 ≤ 5 / 4 + κ := by linarith
  have key := rounds_axisByAxis (fin := fin) (Λ := 5 / 4) (κ := κ) (M := M) (by norm_num)
    (fun k i => i < dims k)
    (fun k => cubRegRule fma (e.fmaLow fma) lin (clampIdx (⌊q' k⌋ - 1) (dims k - 4),
      satRegular (dims k) ⌊q' k⌋, t k))
    (fun k f => cubicPiece (dims k) (fun i : Nat => val (starts k) + val (steps k) * (i : K)) f lin
      (clampIdx ⌊(val (x k) - val (starts k)) / val (steps k)⌋ (dims k - 2)) (val (x k))) g
      ?_ ?_ ?_ hgM
  · refine ⟨_, _, ?_, key.1, hex, key.2.2⟩
    rw [multicubicRegularAt_eq e he fma hT dims starts steps vals lin hslice x,
      hacc.check (by omega), Res.ok_bind,
      axisLoop_ok N _ _ _ (fun k => by simp only [aget_fin, Res.ok_bind]; exact hrun k),
      Res.ok_bind]
  · intro k f f' ε hf
    rw [← hΛ]
    exact cubicPiece_lip (hincr k) (hbig k) lin (hd k) (hin k) (hmesh k) fun j hj => hf j hj.1
  · intro k B f hf
    have := cubicPiece_lip (hincr k) (hbig k) lin (hd k) (hin k) (hmesh k) (f := f)
      (f' := fun _ => 0) (ε := B) fun j hj => by rw [sub_zero]; exact hf j hj.1
    have h0 : cubicPiece (dims k) (fun i : Nat => val (starts k) + val (steps k) * (i : K))
        (fun _ => 0) lin (clampIdx ⌊(val (x k) - val (starts k)) / val (steps k)⌋ (dims k - 2))
        (val (x k)) = 0 :=
      cubicPiece_affine (hincr k) (hbig k) (hd k).1 lin (φ := fun _ => (0 : K))
        ⟨0, 0, fun z => by ring⟩
    rw [h0, sub_zero, hΛ] at this
    exact this
  · intro k j f hj hf
    set B := (5 / 4 + κ) ^ j * M with hBdef
    have hB0 : M ≤ B := le_mul_of_one_le_left hM (one_le_pow₀ hΛκ)
    have hB : 0 ≤ B := hM.trans hB0
    have hBN : B ≤ (5 / 4 + κ) ^ (N - 1) * M := by
      rw [hBdef]
      gcongr
      omega
    set ω := regularWeightError u η (A k) (val (steps k)) 3 with hω
    set δ := positionError u η ((dims k - 1 : Nat) : K) with hδ
    have hsm := hsmall k
    have hωk := hω0 k
    have hδk := hδ0 k
    rw [← hω, ← hδ] at hsm
    rw [← hω] at hωk
    rw [← hδ] at hδk
    set q := (val (x k) - val (starts k)) / val (steps k) with hq
    set o := clampIdx (⌊q' k⌋ - 1) (dims k - 4) with ho
    set p := val (t k) + ((o + 1 : Nat) : K) with hp
    have hqq := hq' k
    have hpq := hte k
    rw [← hq, ← hδ] at hqq
    rw [← ho, ← hp, ← hq, ← hω] at hpq
    have a0 : 0 ≤ q := hq0 k
    have a1 : q ≤ ((dims k - 1 : Nat) : K) := hq1 k
    have hqb := abs_le.1 hqq
    have hpb := abs_le.1 hpq
    have fq := Int.floor_le (q' k)
    have lq := Int.lt_floor_add_one (q' k)
    have htp : val (t k) = p - ((o + 1 : Nat) : K) := by rw [hp]; ring
    have hreach : Reach (val (t k)) (1 + (ω + δ)) (satRegular (dims k) ⌊q' k⌋) := by
      rw [htp, ho]
      exact reach_of_near (hbig k) (by linarith) (by linarith) (by linarith) (by linarith)
    have r1 : 1 + (ω + δ) ≤ 101 / 100 := by linarith
    have r0 : (0 : K) ≤ 1 + (ω + δ) := by linarith
    have r2 : (1 + (ω + δ)) ^ 2 ≤ 59 / 57 :=
      (pow_le_pow_left₀ r0 r1 2).trans (by norm_num)
    have r3 : (1 + (ω + δ)) ^ 3 ≤ 1650 / 1593 :=
      (pow_le_pow_left₀ r0 r1 3).trans (by norm_num)
    have hcb := clampIdx_le (⌊q' k⌋ - 1) (dims k - 4)
    rw [← ho] at hcb
    have hbg := hbig k
    have s1 := apx_regular h hu hsign (B := B) (r := 1 + (ω + δ))
      ⟨hB, le_rfl, by linarith, by linarith, hunderM.trans (by gcongr), by linarith, by linarith,
        by nlinarith⟩
      fma (e.fmaLow fma) lin (v := fun i => f (o + i.val)) (t := t k)
      (sat := satRegular (dims k) ⌊q' k⌋)
      (fun i => hf _ (by have := i.isLt; omega)) (htf k) hreach
    have s2 := regPiece_close (hbig k) lin (f := fun i => val (f i)) (B := B)
      (fun i hi => (hf i hi).2) a0 a1 hqq hpq (by linarith)
    have e1 : regPiece (dims k) lin (fun i => val (f i)) ⌊q' k⌋ p =
        cubicInnerRegular false false (fun i : Fin 4 => val (f (o + i.val))) (val (t k))
          (satRegular (dims k) ⌊q' k⌋) lin := by
      rw [htp]; rfl
    have e2 : regPiece (dims k) lin (fun i => val (f i)) ⌊q⌋ q =
        cubicPiece (dims k) (fun i : Nat => val (starts k) + val (steps k) * (i : K))
          (fun i => val (f i)) lin (clampIdx ⌊q⌋ (dims k - 2)) (val (x k)) := by
      have := cubRegRule_exact false false lin (hbig k) (start := val (starts k)) (x := val (x k))
        (hpos k) (fun i => val (f i))
      rw [← this, ← hq]
      unfold regPiece cubRegRule
      congr 1
      rw [hq]
      have := (hpos k).ne'
      field_simp
      ring
    rw [e1, e2] at s2
    refine ⟨s1.1, (abs_sub_le _ _ _).trans ((add_le_add s1.2 s2).trans ?_)⟩
    have hk := hκ k
    unfold cubicAxisDeviation at hk
    rw [← hω, ← hδ] at hk
    have b1 : 1593 * (u * ((1 + (ω + δ)) ^ 3 * B)) ≤ 1650 * u * B := by
      have : u * ((1 + (ω + δ)) ^ 3 * B) ≤ u * (1650 / 1593 * B) := by gcongr
      linarith
    have b2 : 57 * (1 + (ω + δ)) ^ 2 * B * (ω + 2 * δ) ≤ 59 * (ω + 2 * δ) * B := by
      have h1 : 57 * (1 + (ω + δ)) ^ 2 * B ≤ 57 * (59 / 57) * B := by gcongr
      have h2 : 0 ≤ ω + 2 * δ := by linarith
      have := mul_le_mul_of_nonneg_right h1 h2
      linarith
    have := mul_le_mul_of_nonneg_right hk hB
    linarith

/-- The bound of `C70_regular` without underflow: if no node is larger than `c` steps, at most
`4200 N (1 + c) u (5/4)^N M`, as long as `4200 N (1 + c) u ≤ 1`. -/
theorem C70_simple_bound (hu : 0 ≤ u) (M : K) (hM : 0 ≤ M) (hN0 : 0 < N) (dims : Fin N → Nat)
    (starts steps A : Fin N → K) (c : K) (hsteps : ∀ k, 0 < steps k)
    (hA : ∀ k, |starts k| ≤ A k ∧ |starts k + steps k * ((dims k - 1 : Nat) : K)| ≤ A k)
    (hc : ∀ k, A k ≤ c * steps k) (hN : 4200 * N * (1 + c) * u ≤ 1) :
    ∃ κ, (∀ k, cubicAxisDeviation u 0 (A k) (steps k) (dims k) ≤ κ) ∧
      ((5 / 4 + κ) ^ N - (5 / 4) ^ N) * M ≤ 4200 * N * (1 + c) * u * (5 / 4) ^ N * M := by
  have hN1 : (1 : K) ≤ N := by exact_mod_cast hN0
  have hc0 : 0 ≤ c := by
    have h1 := (abs_nonneg _).trans (hA ⟨0, hN0⟩).1
    have h2 := hc ⟨0, hN0⟩
    have := hsteps ⟨0, hN0⟩
    by_contra hneg
    nlinarith
  have huc0 : 0 ≤ u * c := by positivity
  have hucs : 4200 * (u + u * c) ≤ 1 := by
    have : 0 ≤ u + u * c := by positivity
    nlinarith
  have hu1 : 4200 * u ≤ 1 := by linarith
  have huu : u * u ≤ u / 4200 := by nlinarith
  refine ⟨2100 * (1 + c) * u, fun k => ?_, ?_⟩
  · have h1 := abs_le.1 (hA k).1
    have h2 := abs_le.1 (hA k).2
    have h3 := hsteps k
    have hn : ((dims k - 1 : Nat) : K) ≤ 2 * c := by
      have : steps k * ((dims k - 1 : Nat) : K) ≤ steps k * (2 * c) := by
        have := hc k
        linarith
      exact le_of_mul_le_mul_left this h3
    have hAs : A k / steps k ≤ c := by rw [div_le_iff₀ h3]; exact hc k
    have hAs0 : 0 ≤ A k / steps k := div_nonneg ((abs_nonneg _).trans (hA k).1) h3.le
    have hn0 : (0 : K) ≤ ((dims k - 1 : Nat) : K) := Nat.cast_nonneg _
    unfold cubicAxisDeviation regularWeightError positionError nodeError
    simp only [add_zero, mul_zero]
    rw [mul_div_assoc]
    set a := A k / steps k
    set d := ((dims k - 1 : Nat) : K)
    have e1 : 2 * u + u ^ 2 ≤ 41 / 20 * u := by nlinarith
    have e2 : (2 * u + u ^ 2) * d ≤ 41 / 20 * u * (2 * c) := by gcongr
    have e4 : (1 + u) ^ 2 ≤ 21 / 20 := by nlinarith
    have e5 : 3 * u + 2 * u ^ 2 ≤ 61 / 20 * u := by nlinarith
    have e6 : (1 + u) ^ 2 * ((3 * u + 2 * u ^ 2) * a) ≤ 21 / 20 * (61 / 20 * u * c) := by gcongr
    linarith
  · have := C69_simple_bound (N := N) (5 / 4) (2100 * (1 + c) * u) M (by norm_num) (by positivity) hM
      (by linarith)
    refine this.trans (le_of_eq ?_)
    ring

end

/-! ### Concrete cases -/

section Examples
open ExtNum

/-- Floats with 53 significant bits. -/
@[reducible] def cubicRegOps : FloatOps (ExtNum ℚ) := bitOps 53 1023
attribute [local instance] cubicRegOps

/-- Values on a 5×4 grid. -/
def exCubicRegVals : List (ExtNum ℚ) :=
  [fin 2, fin 6, fin (-7), fin 16, fin 10, fin 3, fin 5, fin 1, fin (-2), fin 8,
    fin 0, fin 7, fin 1, fin 4, fin (-9), fin 6, fin 2, fin (-1), fin 12, fin (5 / 2)]

/-- Hypotheses of `C70_regular` are satisfied: on a 5×4 grid whose first axis has a step close to
`1/10` and at an observation just below node 1 of that axis, the result is correct to `10^-9`. -/
example : ∃ r y, multicubicRegularAt (.recursive 2) true ![5, 4] ![fin 1, fin 1]
      ![fin (3602879701896396 / 2 ^ 55), fin 2] exCubicRegVals true
      ![fin (9907919180215090 / 2 ^ 53), fin (25 / 4)] = .ok r ∧
    multicubicAt (.recursive 2) true (.regular ![5, 4] (fun k => value (![fin 1, fin 1] k))
      fun k => value (![fin (3602879701896396 / 2 ^ 55), fin 2] k))
      (exCubicRegVals.map value) true
      (fun k => value (![fin (9907919180215090 / 2 ^ 53), fin (25 / 4)] k)) = .ok y ∧
    |value r - y| ≤ 1 / 10 ^ 9 := by
  have H := float_exact (p := 53) (e := 1023) (by norm_num)
  obtain ⟨r, y, h1, -, h2, h3⟩ := C70_regular (float_rounds (p := 53) (e := 1023) (by norm_num))
    (float_compare 53 1023) ⟨H.one, H.neg⟩ (totalOfUsize _)
    (float_whole (p := 53) (e := 1023) (n := 2 ^ 53) le_rfl
      (Nat.pow_le_pow_right (by norm_num) (by norm_num)))
    (by norm_num) (.recursive 2) (by decide : 0 < 2 ∧ 2 ≤ 2) true
    ![5, 4] ![fin 1, fin 1] ![fin (3602879701896396 / 2 ^ 55), fin 2] exCubicRegVals true
    (valid_of_check (by decide +kernel)) (by decide) (by decide +kernel) ![2, 7]
    (by decide +kernel) 16 (by decide +kernel)
    ![fin (9907919180215090 / 2 ^ 53), fin (25 / 4)] (by decide +kernel)
    (by unfold InRange; decide +kernel)
    (fun k => by
      fin_cases k <;> constructor <;> simp only [nodeError, positionError] <;> decide +kernel)
    (by simp only [regularWeightError, nodeError, positionError]; decide +kernel)
    (1 / 10 ^ 11)
    (by simp only [cubicAxisDeviation, regularWeightError, nodeError, positionError]; decide +kernel)
    (by norm_num) (by norm_num) (by decide +kernel) (by decide +kernel)
  refine ⟨r, y, h1, h2, h3.trans ?_⟩
  norm_num

/-- Hypotheses of `C70_simple_bound` are satisfied. -/
example : ∃ κ : ℚ, (∀ k : Fin 2, cubicAxisDeviation (1 / 2 ^ 53) 0 (![2, 7] k) (![1 / 10, 2] k)
      (![5, 4] k) ≤ κ) ∧
    ((5 / 4 + κ) ^ 2 - (5 / 4) ^ 2) * 16 ≤
      4200 * (2 : Nat) * (1 + 20) * (1 / 2 ^ 53) * (5 / 4) ^ 2 * 16 :=
  C70_simple_bound (by norm_num) 16 (by norm_num) (by norm_num) ![5, 4] ![1, 1] ![1 / 10, 2] ![2, 7]
    20 (by decide +kernel) (by decide +kernel) (by decide +kernel) (by norm_num)

end Examples

end Interpn
