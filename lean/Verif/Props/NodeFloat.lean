import Verif.Lemmas.NodeFloat
import Verif.Props.Crop
import Verif.Props.Utils
import Verif.Props.Batch

/-! C127: observations that are nodes of a rectilinear grid, in floating point of any IEEE binary
format. Nearest-neighbour interpolation returns the stored value bit for bit, whatever it is, so that
evaluating on the mesh of the grid gives back the table. Multilinear interpolation has a rounding error
on every axis where the node is not the first one. -/

set_option autoImplicit false
set_option linter.unusedSectionVars false

namespace Interpn
open FloatOps

section
variable {f : Format} {N : Nat}

/-- C127, nearest-neighbour: at a node of a rectilinear grid (or the other zero, if the node is a zero)
the result is the stored value of that node, bit for bit. The stored values are arbitrary, NaN and
infinities included, and there is no condition on the size of the nodes: the width of a cell may
overflow. -/
theorem C127_nearest_rectilinear (grids : Fin N → List (Ieee f)) (vals : List (Ieee f))
    (hG : RectilinearAccepted 2 grids vals) (hfin : ∀ k, ∀ a ∈ grids k, Ieee.Finite a)
    (hsort : ∀ k, (grids k).Pairwise fun a b => (a <. b) = true)
    (g : (Fin N → Nat) → Ieee f) (hg : Samples (fun k => (grids k).length) vals g)
    (i : Fin N → Nat) (x a : Fin N → Ieee f) (ha : ∀ k, (grids k)[i k]? = some (a k))
    (hx : ∀ k, Ieee.Finite (x k)) (hv : ∀ k, Ieee.val (x k) = Ieee.val (a k)) :
    nearestRectilinearAt grids vals x = .ok (g i) := by
  have hl : ∀ k, i k < (grids k).length := fun k => (List.getElem?_eq_some_iff.1 (ha k)).1
  have hn : ∀ k, nearRectAxis (grids k) (x k) = i k := fun k => by
    obtain ⟨h1, h2⟩ := List.getElem?_eq_some_iff.1 (ha k)
    exact Ieee.nearRectAxis_node (hG.big k) (hfin k) (hsort k) h1 (hx k) (by rw [hv k, h2])
  rw [nearestRectilinearAt_eq grids vals hG.slice x, hG.check le_rfl, Res.ok_bind, funext hn]
  have := samples_valAt zero (fun k => (grids k).length) vals hG.len i hl
  rw [hg i hl, Option.some.injEq] at this
  rw [this]

/-- C127, a round trip: the batch evaluation at all the nodes, listed by `meshgrid`, writes the table of
stored values into the buffer. -/
theorem C127_nearest_mesh (grids : Fin N → List (Ieee f)) (vals out : List (Ieee f))
    (hG : RectilinearAccepted 2 grids vals) (hfin : ∀ k, ∀ a ∈ grids k, Ieee.Finite a)
    (hsort : ∀ k, (grids k).Pairwise fun a b => (a <. b) = true) (hout : out.length = vals.length) :
    ∃ s, NearestRectilinear.new grids vals = .ok s ∧
      s.interp (fun k => (meshgrid (List.ofFn grids)).map fun p => p.getD k.val zero) out =
        (.ok (), vals) := by
  have hnew : NearestRectilinear.new grids vals =
      .ok { grids, dims := fun i => (grids i).length, vals } := by
    rw [NearestRectilinear.new_form, hG.check le_rfl, Res.ok_bind]; rfl
  refine ⟨_, hnew, (((C09_C10_nearest_rectilinear _).ok_iff _ out vals).2 ⟨?_, hout.symm, ?_⟩)⟩
  · intro k
    rw [List.length_map, (C48_entries grids).1, hout, hG.len]
  · intro j v hj
    have hjl := (List.getElem?_eq_some_iff.1 hj).1
    obtain ⟨loc, hl, rfl⟩ := cIndex_surj (fun k => (grids k).length) j (by rw [← hG.len]; exact hjl)
    refine ⟨fun k => (grids k)[loc k]'(hl k), ?_, ?_⟩
    · intro k
      rw [List.getElem?_map, (C48_entries grids).2 loc hl]
      simp
    · have hs := samples_valAt zero (fun k => (grids k).length) vals hG.len
      have := C127_nearest_rectilinear grids vals hG hfin hsort _ hs loc
        (fun k => (grids k)[loc k]'(hl k)) (fun k => (grids k)[loc k]'(hl k))
        (fun k => List.getElem?_eq_getElem (hl k)) (fun k => hfin k _ (List.getElem_mem (hl k)))
        fun _ => rfl
      unfold nearestRectilinearAt at this
      rw [hnew, Res.ok_bind] at this
      rw [this]
      have h2 := hs loc hl
      rw [hj, Option.some.injEq] at h2
      rw [h2]

/-- C127, `Nearest1D` on a rectilinear grid: exact at the nodes too, though it compares distances where
the N-d interpolator compares a position with 1/2. -/
theorem C127_nearest_1d (fma : Bool) (grid vals : List (Ieee f)) (h2 : 2 ≤ grid.length)
    (hs : IsSlice grid) (hl : vals.length = grid.length) (hfin : ∀ a ∈ grid, Ieee.Finite a)
    (hsort : grid.Pairwise fun a b => (a <. b) = true) (i : Nat) (x a v : Ieee f)
    (ha : grid[i]? = some a) (hv : vals[i]? = some v) (hx : Ieee.Finite x)
    (hxa : Ieee.val x = Ieee.val a) :
    rectilinear1DAt (Kind1D.nearest.evalOne fma) grid vals x = .ok v := by
  obtain ⟨hi, rfl⟩ := List.getElem?_eq_some_iff.1 ha
  obtain ⟨hi', rfl⟩ := List.getElem?_eq_some_iff.1 hv
  unfold rectilinear1DAt RectilinearGrid1D.new
  rw [if_neg (by omega), Res.ok_bind]
  simp only [Kind1D.evalOne, Nearest1D.evalOne]
  rw [RectilinearGrid1D.at_ok h2 hs hl, Res.ok_bind]
  obtain ⟨f0, f1, hlt, hb, h⟩ := Ieee.cell_node h2 hfin hsort hi hx hxa
  have habs : ∀ w : Ieee f, Ieee.Finite w ∧ Ieee.val w = 0 →
      Ieee.Finite (FloatOps.abs w) ∧ Ieee.val (FloatOps.abs w) = 0 := by
    rintro w ⟨hw, hw0⟩
    obtain ⟨s, q, hr, hs, rfl⟩ := hw.cases
    refine ⟨trivial, ?_⟩
    change |q| = 0
    rw [show q = 0 from hw0, abs_zero]
  dsimp only at f0 f1 hlt h ⊢
  rcases h with ⟨rfl, hc, hv'⟩ | ⟨hic, hsub, hv'⟩
  · have hz := habs _ (Ieee.sub_same f0 hx hv')
    have hle : (FloatOps.abs (x -. grid.getD (linCell grid x) zero) <=.
        FloatOps.abs (x -. grid.getD (linCell grid x + 1) zero)) = true := by
      obtain ⟨s, q, hr, hs, e⟩ := hz.1.cases
      have hq : q = 0 := by have := hz.2; rw [e] at this; exact this
      obtain ⟨t, e'⟩ := Ieee.sub_fin hx f1
      rw [e, e']
      rcases Ieee.rnd_cases (f := f) t (Ieee.val x - Ieee.val (grid.getD (linCell grid x + 1) zero)) with
        h' | ⟨h', -⟩
      · obtain ⟨s', q', hr', hs', e''⟩ := h'.1.cases
        rw [e'']
        change decide (q ≤ |q'|) = true
        rw [hq]; exact decide_eq_true (abs_nonneg _)
      · rw [h']; rfl
    rw [if_pos hle, Res.pure_eq, hc, List.getD_eq_getElem _ _ hi']
  · have hz := habs _ (Ieee.sub_same f1 hx hv')
    have hle : (FloatOps.abs (x -. grid.getD (linCell grid x) zero) <=.
        FloatOps.abs (x -. grid.getD (linCell grid x + 1) zero)) = false := by
      obtain ⟨s, q, hr, hs, e⟩ := hz.1.cases
      have hq : q = 0 := by have := hz.2; rw [e] at this; exact this
      rw [e, hsub]
      rcases Ieee.width_cases f0 f1 hlt with ⟨h1, h2⟩ | h'
      · obtain ⟨s', q', hr', hs', e''⟩ := h1.cases
        rw [e''] at h2 ⊢
        change decide (|q'| ≤ q) = false
        rw [hq]
        exact decide_eq_false (not_le.2 (abs_pos.2 (ne_of_gt h2)))
      · rw [h']; rfl
    rw [if_neg (by rw [hle]; decide), Res.pure_eq]
    simp only [hic]
    rw [List.getD_eq_getElem _ _ (by omega)]

/-- C127, multilinear: at a node of a rectilinear grid, the error is at most
`((1 + 3u + 2u²)^n - 1) M`, where `M` bounds the stored values and `n` is the number of axes on which
the node is not the first one. At the first node of every axis, the result is exact. No condition on
the differences of stored values (as in C68), nor on the widths of the cells (as in C66), and no term
for underflow. -/
theorem C127_multilinear_rectilinear (e : Evaluator) (he : e.Fits N) (fma : Bool)
    (grids : Fin N → List (Ieee f)) (vals : List (Ieee f)) (hG : RectilinearAccepted 2 grids vals)
    (hfin : ∀ k, ∀ a ∈ grids k, Ieee.Finite a ∧ 2 * |Ieee.val a| ≤ f.omega)
    (hsort : ∀ k, (grids k).Pairwise fun a b => (a <. b) = true)
    (g : (Fin N → Nat) → Ieee f) (hg : Samples (fun k => (grids k).length) vals g)
    (M : ℚ) (hM : ∀ v ∈ vals, Ieee.Finite v ∧ |Ieee.val v| ≤ M)
    (i : Fin N → Nat) (x a : Fin N → Ieee f) (ha : ∀ k, (grids k)[i k]? = some (a k))
    (hx : ∀ k, Ieee.Finite (x k)) (hv : ∀ k, Ieee.val (x k) = Ieee.val (a k)) (n : Nat)
    (hn : (Finset.univ.filter fun k => i k ≠ 0).card = n)
    (hΩ : 2 * ((1 + 3 * f.unitRoundoff + 2 * f.unitRoundoff ^ 2) ^ n * M) ≤ f.omega) :
    ∃ r, multilinearRectilinearAt e fma grids vals x = .ok r ∧ Ieee.Finite r ∧
      |Ieee.val r - Ieee.val (g i)| ≤
        ((1 + 3 * f.unitRoundoff + 2 * f.unitRoundoff ^ 2) ^ n - 1) * M := by
  have hu0 : 0 ≤ f.unitRoundoff := (Ieee.rounds f).u_nonneg
  have hl : ∀ k, i k < (grids k).length := fun k => (List.getElem?_eq_some_iff.1 (ha k)).1
  have hs := samples_valAt zero (fun k => (grids k).length) vals hG.len
  have hM0 : 0 ≤ M := (abs_nonneg _).trans (hM _ (List.mem_of_getElem? (hg i hl))).2
  set δ : Fin N → ℚ := fun k =>
    if i k = 0 then 0 else 3 * f.unitRoundoff + 2 * f.unitRoundoff ^ 2 with hδ
  have hprod : ∏ k, (1 + δ k) = (1 + 3 * f.unitRoundoff + 2 * f.unitRoundoff ^ 2) ^ n := by
    rw [← hn, ← Finset.prod_const, Finset.prod_filter]
    refine Finset.prod_congr rfl fun k _ => ?_
    by_cases h : i k = 0
    · simp [hδ, h]
    · simp only [hδ, if_neg h, if_pos h, ne_eq, not_false_eq_true, if_true]; ring
  have key := axisByAxis_close hM0 (fun k j => j < (grids k).length)
    (fun k => linRule fma (grids k) (x k)) δ i (valAt zero (fun k => (grids k).length) vals)
    (fun k => by simp only [hδ]; split <;> positivity) hl (by rw [hprod]; exact hΩ)
    (fun k v B hB hvB => by
      obtain ⟨h1, h2⟩ := List.getElem?_eq_some_iff.1 (ha k)
      exact Ieee.linRule_node fma (hG.big k) (hfin k) (hsort k) h1 (hx k) (by rw [hv k, h2]) v hB hvB)
    (fun loc hloc => hM _ (List.mem_of_getElem? (hs loc hloc)))
  refine ⟨_, by rw [multilinearRectilinearAt_eq e he fma grids vals hG.slice x, hG.check le_rfl,
    Res.ok_bind], key.1, ?_⟩
  have h2 := key.2
  have h3 := hs i hl
  rw [hg i hl, Option.some.injEq] at h3
  rw [hprod, ← h3] at h2
  exact h2

/-- C127, multilinear, in plain numbers: the error at a node is at most `8 n u M` (in `f64`,
`u = 2^-53`), if `8 N u ≤ 1` and the stored values are at most a quarter of the largest float. -/
theorem C127_multilinear_simple (e : Evaluator) (he : e.Fits N) (fma : Bool)
    (grids : Fin N → List (Ieee f)) (vals : List (Ieee f)) (hG : RectilinearAccepted 2 grids vals)
    (hfin : ∀ k, ∀ a ∈ grids k, Ieee.Finite a ∧ 2 * |Ieee.val a| ≤ f.omega)
    (hsort : ∀ k, (grids k).Pairwise fun a b => (a <. b) = true)
    (g : (Fin N → Nat) → Ieee f) (hg : Samples (fun k => (grids k).length) vals g)
    (M : ℚ) (hM : ∀ v ∈ vals, Ieee.Finite v ∧ |Ieee.val v| ≤ M) (hΩ : 4 * M ≤ f.omega)
    (hN : 8 * N * f.unitRoundoff ≤ 1)
    (i : Fin N → Nat) (x a : Fin N → Ieee f) (ha : ∀ k, (grids k)[i k]? = some (a k))
    (hx : ∀ k, Ieee.Finite (x k)) (hv : ∀ k, Ieee.val (x k) = Ieee.val (a k)) :
    ∃ r, multilinearRectilinearAt e fma grids vals x = .ok r ∧ Ieee.Finite r ∧
      |Ieee.val r - Ieee.val (g i)| ≤
        8 * (Finset.univ.filter fun k => i k ≠ 0).card * f.unitRoundoff * M := by
  set n := (Finset.univ.filter fun k => i k ≠ 0).card with hn
  have hu0 : 0 ≤ f.unitRoundoff := (Ieee.rounds f).u_nonneg
  have hl : ∀ k, i k < (grids k).length := fun k => (List.getElem?_eq_some_iff.1 (ha k)).1
  have hM0 : 0 ≤ M := (abs_nonneg _).trans (hM _ (List.mem_of_getElem? (hg i hl))).2
  have hnN : (n : ℚ) ≤ N := by
    have := Finset.card_filter_le (Finset.univ : Finset (Fin N)) fun k => i k ≠ 0
    rw [Finset.card_univ, Fintype.card_fin] at this
    exact_mod_cast this
  have hnu : 8 * (n : ℚ) * f.unitRoundoff ≤ 1 := le_trans (by gcongr) hN
  have hu1 : f.unitRoundoff ≤ 1 / 2 := by
    unfold Format.unitRoundoff
    have := f.two_le_p
    apply one_div_le_one_div_of_le (by norm_num)
    calc (2 : ℚ) = 2 ^ 1 := by norm_num
      _ ≤ 2 ^ f.p := pow_le_pow_right₀ (by norm_num) (by omega)
  have hpow : (1 + 3 * f.unitRoundoff + 2 * f.unitRoundoff ^ 2) ^ n ≤ 1 + 8 * n * f.unitRoundoff := by
    have h1 : (1 + 3 * f.unitRoundoff + 2 * f.unitRoundoff ^ 2) ^ n ≤ (1 + 4 * f.unitRoundoff) ^ n := by
      apply pow_le_pow_left₀ (by positivity)
      nlinarith
    have h2 := one_add_pow_le (β := 4 * f.unitRoundoff) (by positivity) n (by linarith)
    linarith
  obtain ⟨r, h1, h2, h3⟩ := C127_multilinear_rectilinear e he fma grids vals hG hfin hsort g hg M hM i x
    a ha hx hv n hn.symm (by
      have := mul_le_mul_of_nonneg_right hpow hM0
      nlinarith)
  refine ⟨r, h1, h2, h3.trans ?_⟩
  have := mul_le_mul_of_nonneg_right hpow hM0
  linarith

end

section Examples
set_option exponentiation.threshold 1100

/-- Nearest at the last node of a cell whose width is not a float, and at the node 0 with the other
zero; the stored value is NaN. -/
example :
    let grids : Fin 2 → List F64 := ![[q64 (-2 ^ 1023), q64 (2 ^ 1023)], [q64 0, q64 1, q64 3]]
    let vals : List F64 := [q64 1, q64 2, q64 3, .nan, q64 5, .inf true]
    nearestRectilinearAt grids vals ![q64 (2 ^ 1023), -. q64 0] = .ok .nan := by
  intro grids vals
  have hlen : vals.length = ∏ k, (grids k).length := by decide
  exact C127_nearest_rectilinear grids vals
    ⟨by unfold IsSlice; decide, hlen, by decide, by
      intro k; fin_cases k <;> exact ⟨_, _, _, rfl, by decide +kernel⟩⟩
    (by decide +kernel) (by decide +kernel) (valAt (q64 0) (fun k => (grids k).length) vals)
    (samples_valAt _ _ _ hlen) ![1, 0] _ ![q64 (2 ^ 1023), q64 0] (by decide +kernel)
    (by decide +kernel) (by decide +kernel)

/-- The round trip over the mesh. -/
example : ∃ s, NearestRectilinear.new exGrids64 exVals64 = .ok s ∧
    s.interp (fun k => (meshgrid (List.ofFn exGrids64)).map fun p => p.getD k.val zero)
      (List.replicate 6 .nan) = (.ok (), exVals64) :=
  C127_nearest_mesh exGrids64 exVals64 _
    ⟨by unfold IsSlice; decide, by decide, by decide, by
      intro k; fin_cases k <;> exact ⟨_, _, _, rfl, by decide +kernel⟩⟩
    (by decide +kernel) (by decide +kernel) (by decide)

/-- 1-D, the middle node. -/
example (fma : Bool) : rectilinear1DAt (Kind1D.nearest.evalOne fma)
    [q64 (-2 ^ 1023), q64 (2 ^ 1023), q64 (3 / 2 * 2 ^ 1023)]
    [q64 1, .inf false, q64 3] (q64 (2 ^ 1023)) = .ok (.inf false) :=
  C127_nearest_1d fma _ _ (by decide) (by unfold IsSlice; decide) (by decide) (by decide +kernel)
    (by decide +kernel) 1 _ (q64 (2 ^ 1023)) _ rfl rfl (by decide +kernel) rfl

/-- Multilinear, at an inner node of one axis and the first node of the other: one rounding. -/
example (e : Evaluator) (he : e.Fits 2) (fma : Bool) :
    ∃ r, multilinearRectilinearAt e fma exGrids64 exVals64 ![exGrids64 0 |>.getD 1 zero, q64 1] = .ok r ∧
      Ieee.Finite r ∧ |Ieee.val r - Ieee.val (valAt (q64 0) (fun k => (exGrids64 k).length) exVals64 ![1, 0])| ≤
        8 * 1 * (1 / 2 ^ 53) * 16 := by
  obtain ⟨r, h1, h2, h3⟩ := C127_multilinear_simple e he fma exGrids64 exVals64
    ⟨by unfold IsSlice; decide, by decide, by decide, by
      intro k; fin_cases k <;> exact ⟨_, _, _, rfl, by decide +kernel⟩⟩
    (by decide +kernel) (by decide +kernel) (valAt (q64 0) (fun k => (exGrids64 k).length) exVals64)
    (samples_valAt _ _ _ (by decide)) 16 (by decide +kernel) (by decide +kernel) (by decide +kernel)
    ![1, 0] ![exGrids64 0 |>.getD 1 zero, q64 1] ![exGrids64 0 |>.getD 1 zero, q64 1]
    (by decide +kernel) (by decide +kernel) (fun _ => rfl)
  refine ⟨r, h1, h2, h3.trans (le_of_eq ?_)⟩
  have : (Finset.univ.filter fun k : Fin 2 => (![1, 0] : Fin 2 → Nat) k ≠ 0).card = 1 := by decide
  rw [this]
  rfl

end Examples

end Interpn
