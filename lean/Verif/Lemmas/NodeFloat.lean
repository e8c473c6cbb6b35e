import Verif.Lemmas.Ieee
import Verif.Lemmas.IeeeMono
import Verif.Lemmas.ExactFloat
import Verif.Lemmas.RoundingNearest
import Verif.Lemmas.RoundingRegular
import Verif.Lemmas.IeeeNearestOut
import Verif.Lemmas.Crop
import Mathlib.Algebra.BigOperators.Fin

/-! Observations that are nodes of the grid, in IEEE 754 arithmetic (C127): the computed weight is
exactly 0 or 1. -/

set_option autoImplicit false
set_option linter.unusedSectionVars false

namespace Interpn
open FloatOps

namespace Ieee
variable {f : Format}

theorem rnd_sign (s s' : Bool) {q : ℚ} (h : q ≠ 0) : rnd f s q = rnd f s' q := by
  unfold rnd
  simp only [if_neg h]

/-- The width of a cell is positive, or too large for a float. -/
theorem width_cases {a b : Ieee f} (ha : Finite a) (hb : Finite b) (h : val a < val b) :
    (Finite (b -. a) ∧ 0 < val (b -. a)) ∨ b -. a = inf false := by
  obtain ⟨s, e⟩ := sub_fin hb ha
  have hq : 0 < val b - val a := sub_pos.2 h
  by_cases hle : |f.roundQ (val b - val a)| ≤ f.omega
  · left
    have e2 : Finite (rnd f s (val b - val a)) ∧ val (rnd f s (val b - val a)) = f.roundQ (val b - val a) := by
      unfold rnd; rw [dif_pos hle]; exact ⟨trivial, rfl⟩
    rw [e, e2.2]
    refine ⟨e2.1, ?_⟩
    have := f.roundQ_err_add hb.repr ha.repr.neg
    rw [← sub_eq_add_neg, abs_of_pos hq] at this
    have hu : f.unitRoundoff < 1 := by
      unfold Format.unitRoundoff
      have := f.two_le_p
      rw [div_lt_one (by positivity)]
      exact one_lt_pow₀ (by norm_num) (by omega)
    have := (abs_le.1 this).1
    nlinarith
  · right
    rw [e]; unfold rnd; rw [dif_neg hle, decide_eq_false (not_lt.2 hq.le)]

theorem sub_same {a x : Ieee f} (ha : Finite a) (hx : Finite x) (h : val x = val a) :
    Finite (x -. a) ∧ val (x -. a) = 0 := by
  have := (exactIfFloat f).sub x a zero hx ha zero_eq.1 (by rw [h, sub_self]; rfl)
  rwa [zero_eq.2] at this

theorem sub_congr {a b x : Ieee f} (ha : Finite a) (hb : Finite b) (hx : Finite x) (h : val x = val b)
    (hab : val a < val b) : x -. a = b -. a := by
  obtain ⟨s, e⟩ := sub_fin hx ha
  obtain ⟨t, e'⟩ := sub_fin hb ha
  rw [e, e', h]
  exact rnd_sign s t (sub_pos.2 hab).ne'

theorem offset_zero {w : Ieee f} (h : Finite w ∧ val w = 0) : nearestOffset w = 0 := by
  rcases nearestOffset_float (exactCompareLe f) (half_ieee (f := f)) h.1 with h' | h'
  · exact h'.2
  · rw [h.2] at h'; norm_num at h'

theorem offset_one {w : Ieee f} (h : Finite w ∧ val w = 1) : nearestOffset w = 1 := by
  rcases nearestOffset_float (exactCompareLe f) (half_ieee (f := f)) h.1 with h' | h'
  · rw [h.2] at h'; norm_num at h'
  · exact h'.2

/-- The number of nodes below a node. -/
theorem cellsBelow_node {grid : List (Ieee f)} (hfin : ∀ a ∈ grid, Finite a)
    (hsort : grid.Pairwise fun a b => (a <. b) = true) {i : Nat} (hi : i < grid.length) {x : Ieee f}
    (hx : Finite x) (hv : val x = val grid[i]) : cellsBelow grid x = i := by
  have hf : ∀ j (hj : j < grid.length), Finite grid[j] := fun j hj => hfin _ (List.getElem_mem hj)
  have hmono : ∀ j k (hj : j < k) (hk : k < grid.length), val (grid[j]'(by omega)) < val grid[k] := by
    intro j k hj hk
    exact (exactCompare f _ _ (hf _ _) (hf _ _)).1 (List.pairwise_iff_getElem.1 hsort j k _ hk hj)
  have hiff : ∀ (j : Nat) (hj : j < grid.length), (grid[j] <. x) = true ↔ j < i := by
    intro j hj
    rw [exactCompare f _ _ (hf j hj) hx, hv]
    constructor
    · intro hlt
      by_contra hge
      rcases Nat.lt_or_eq_of_le (not_lt.1 hge) with h1 | h1
      · exact absurd (hmono _ _ h1 hj) (not_lt.2 hlt.le)
      · subst h1; exact lt_irrefl _ hlt
    · exact fun hlt => hmono _ _ hlt hi
  have hdown : ∀ (j : Nat) (hj : j < grid.length), (grid[j] <. x) = true ↔ j < cellsBelow grid x :=
    fun j hj => cellsBelow_iff (fun a b hab hb' hlt => (hiff a (by omega)).2
      (Nat.lt_of_le_of_lt hab ((hiff b hb').1 hlt))) j hj
  have hle := cellsBelow_le grid x
  refine le_antisymm ?_ ?_
  · by_contra hgt
    exact lt_irrefl _ ((hiff i hi).1 ((hdown i hi).2 (by omega)))
  · by_contra hgt
    exact lt_irrefl _ ((hdown _ (by omega)).1 ((hiff (cellsBelow grid x) (by omega)).2 (by omega)))

/-- The cell of a node and the computed position in it. -/
theorem cell_node {grid : List (Ieee f)} (h2 : 2 ≤ grid.length) (hfin : ∀ a ∈ grid, Finite a)
    (hsort : grid.Pairwise fun a b => (a <. b) = true) {i : Nat} (hi : i < grid.length) {x : Ieee f}
    (hx : Finite x) (hv : val x = val grid[i]) :
    let p := fun j => grid.getD j zero
    let c := linCell grid x
    Finite (p c) ∧ Finite (p (c + 1)) ∧ val (p c) < val (p (c + 1)) ∧ linCell grid x + 2 ≤ grid.length ∧
    ((i = 0 ∧ c = 0 ∧ val x = val (p c)) ∨ (i = c + 1 ∧ x -. p c = p (c + 1) -. p c ∧ val x = val (p (c + 1)))) := by
  intro p c
  have hcb := cellsBelow_node hfin hsort hi hx hv
  have hb := linCell_bound h2 x
  have hc : c = i - 1 := by
    show min (cellsBelow grid x - 1) (grid.length - 2) = _
    rw [hcb]; omega
  have e0 : p c = grid[c]'(by omega) := List.getD_eq_getElem _ _ _
  have e1 : p (c + 1) = grid[c + 1]'(by omega) := List.getD_eq_getElem _ _ _
  have f0 : Finite (p c) := by rw [e0]; exact hfin _ (List.getElem_mem _)
  have f1 : Finite (p (c + 1)) := by rw [e1]; exact hfin _ (List.getElem_mem _)
  have hlt : val (p c) < val (p (c + 1)) := by
    rw [← exactCompare f _ _ f0 f1, e0, e1]
    exact List.pairwise_iff_getElem.1 hsort _ _ _ _ (by omega)
  refine ⟨f0, f1, hlt, hb, ?_⟩
  rcases Nat.eq_zero_or_pos i with h | h
  · left
    have hc0 : c = 0 := by omega
    refine ⟨h, hc0, ?_⟩
    rw [hv, e0]
    simp only [h, hc0]
  · right
    have hi' : i = c + 1 := by omega
    have hv' : val x = val (p (c + 1)) := by rw [hv, e1]; simp only [hi']
    exact ⟨hi', sub_congr f0 f1 hx hv' hlt, hv'⟩

/-- The node chosen at a node. -/
theorem nearRectAxis_node {grid : List (Ieee f)} (h2 : 2 ≤ grid.length) (hfin : ∀ a ∈ grid, Finite a)
    (hsort : grid.Pairwise fun a b => (a <. b) = true) {i : Nat} (hi : i < grid.length) {x : Ieee f}
    (hx : Finite x) (hv : val x = val grid[i]) : nearRectAxis grid x = i := by
  obtain ⟨f0, f1, hlt, -, h⟩ := cell_node h2 hfin hsort hi hx hv
  unfold nearRectAxis cellPos
  have hw := width_cases f0 f1 hlt
  rcases h with ⟨rfl, hc, hv'⟩ | ⟨hic, hs, -⟩
  · rw [hc] at f0 f1 hlt hw hv' ⊢
    have hz := sub_same f0 hx hv'
    rw [offset_zero]
    rcases hw with hw | hw
    · have := (exactIfFloat f).div _ _ zero hz.1 hw.1 zero_eq.1 hw.2.ne' (by rw [hz.2, zero_div]; rfl)
      rwa [zero_eq.2] at this
    · rw [hw]
      obtain ⟨s, q, hr, hs, e⟩ := hz.1.cases
      rw [e]
      exact ⟨trivial, rfl⟩
  · rw [hs]
    rcases hw with hw | hw
    · have := (exactIfFloat f).div _ _ one hw.1 hw.1 one_eq.1 hw.2.ne' (by rw [div_self hw.2.ne']; rfl)
      rw [one_eq.2] at this
      rw [offset_one this]; exact hic.symm
    · rw [hw]
      exact hic.symm

/-- Blending with weight 1. -/
theorem lerp_one_close (fma : Bool) {t : Ieee f} {v : Fin 2 → Ieee f} {B : ℚ}
    (ht : Finite t ∧ val t = 1) (h0 : Finite (v 0) ∧ |val (v 0)| ≤ B)
    (h1 : Finite (v 1) ∧ |val (v 1)| ≤ B) (hB : 2 * B ≤ f.omega) :
    Finite (lerp fma t v) ∧ |val (lerp fma t v) - val (v 1)| ≤
      (3 * f.unitRoundoff + 2 * f.unitRoundoff ^ 2) * B := by
  set u := f.unitRoundoff with hu
  have hu0 : 0 ≤ u := (rounds f).u_nonneg
  have hu1 : u ≤ 1 / 2 := by
    rw [hu]; unfold Format.unitRoundoff
    have := f.two_le_p
    apply one_div_le_one_div_of_le (by norm_num)
    calc (2 : ℚ) = 2 ^ 1 := by norm_num
      _ ≤ 2 ^ f.p := pow_le_pow_right₀ (by norm_num) (by omega)
  have hdiff : |val (v 1) - val (v 0)| ≤ 2 * B := (abs_sub _ _).trans (by linarith [h0.2, h1.2])
  obtain ⟨d1, d2⟩ := (rounds f).sub (v 1) (v 0) h1.1 h0.1 (by linarith)
  have hd : |val (v 1 -. v 0) - (val (v 1) - val (v 0))| ≤ u * (2 * B) :=
    d2.trans (mul_le_mul_of_nonneg_left hdiff hu0)
  have hB0 : 0 ≤ B := (abs_nonneg _).trans h0.2
  have hsum : |val (v 0) + val (v 1 -. v 0)| ≤ B + u * (2 * B) := by
    have : val (v 0) + val (v 1 -. v 0) =
      val (v 1) + (val (v 1 -. v 0) - (val (v 1) - val (v 0))) := by ring
    rw [this]
    exact (abs_add_le _ _).trans (add_le_add h1.2 hd)
  have hsumΩ : |val (v 0) + val (v 1 -. v 0)| ≤ f.omega := by nlinarith
  have fin : ∀ r : Ieee f, Finite r ∧ |val r - (val (v 0) + val (v 1 -. v 0))| ≤
      u * |val (v 0) + val (v 1 -. v 0)| →
      Finite r ∧ |val r - val (v 1)| ≤ (3 * u + 2 * u ^ 2) * B := by
    rintro r ⟨r1, r2⟩
    refine ⟨r1, ?_⟩
    have e : val r - val (v 1) = (val r - (val (v 0) + val (v 1 -. v 0))) +
      (val (v 1 -. v 0) - (val (v 1) - val (v 0))) := by ring
    rw [e]
    have := mul_le_mul_of_nonneg_left hsum hu0
    refine (abs_add_le _ _).trans ?_
    linarith
  unfold lerp
  cases fma with
  | true =>
    apply fin
    obtain ⟨s, e⟩ := mulAdd_fin ht.1 d1 h0.1
    rw [ht.2, one_mul, add_comm (val (v 1 -. v 0))] at e
    obtain ⟨r1, r2⟩ := rnd_of_le (f := f) s hsumΩ
    simp only [if_true]
    rw [e, r2]
    exact ⟨r1, f.roundQ_err_add h0.1.repr d1.repr⟩
  | false =>
    apply fin
    have hm := (exactIfFloat f).mul t (v 1 -. v 0) (v 1 -. v 0) ht.1 d1 d1 (by rw [ht.2, one_mul])
    have := (rounds f).add (v 0) (t *. (v 1 -. v 0)) h0.1 hm.1 (by rw [hm.2]; exact hsumΩ)
    rw [hm.2] at this
    exact this

/-- The rule of one axis at a node. -/
theorem linRule_node (fma : Bool) {grid : List (Ieee f)} (h2 : 2 ≤ grid.length)
    (hfin : ∀ a ∈ grid, Finite a ∧ 2 * |val a| ≤ f.omega)
    (hsort : grid.Pairwise fun a b => (a <. b) = true) {i : Nat} (hi : i < grid.length) {x : Ieee f}
    (hx : Finite x) (hv : val x = val grid[i]) (v : Nat → Ieee f) {B : ℚ} (hB : 2 * B ≤ f.omega)
    (hvB : ∀ j, j < grid.length → Finite (v j) ∧ |val (v j)| ≤ B) :
    Finite (linRule fma grid x v) ∧ |val (linRule fma grid x v) - val (v i)| ≤
      (if i = 0 then 0 else 3 * f.unitRoundoff + 2 * f.unitRoundoff ^ 2) * B := by
  obtain ⟨f0, f1, hlt, hb, h⟩ := cell_node h2 (fun a ha => (hfin a ha).1) hsort hi hx hv
  have hw : Finite (grid.getD (linCell grid x + 1) zero -. grid.getD (linCell grid x) zero) ∧
      0 < val (grid.getD (linCell grid x + 1) zero -. grid.getD (linCell grid x) zero) := by
    have hm : ∀ j, j < grid.length → 2 * |val (grid.getD j zero)| ≤ f.omega := by
      intro j hj
      rw [List.getD_eq_getElem _ _ hj]; exact (hfin _ (List.getElem_mem hj)).2
    have m0 := hm (linCell grid x) (by omega)
    have m1 := hm (linCell grid x + 1) (by omega)
    rcases width_cases f0 f1 hlt with hw | hw
    · exact hw
    · have := ((rounds f).sub _ _ f1 f0 ((abs_sub _ _).trans (by linarith))).1
      rw [hw] at this; exact this.elim
  have v0 := hvB (linCell grid x) (by omega)
  have v1 := hvB (linCell grid x + 1) (by omega)
  unfold linRule cellPos
  rcases h with ⟨rfl, hc, hv'⟩ | ⟨hic, hs, -⟩
  · rw [if_pos rfl, zero_mul]
    have hz := sub_same f0 hx hv'
    have ht := (exactIfFloat f).div _ _ zero hz.1 hw.1 zero_eq.1 hw.2.ne' (by rw [hz.2, zero_div]; rfl)
    rw [zero_eq.2] at ht
    have := lerp_zero (exactIfFloat f) fma (v := fun p => v (linCell grid x + p.val)) ht v0.1
      ((rounds f).sub _ _ v1.1 v0.1 ((abs_sub _ _).trans (by linarith [v0.2, v1.2]))).1
    refine ⟨this.1, ?_⟩
    rw [this.2]
    simp [hc]
  · rw [if_neg (by omega)]
    have ht := (exactIfFloat f).div _ _ one hw.1 hw.1 one_eq.1 hw.2.ne' (by rw [div_self hw.2.ne']; rfl)
    rw [one_eq.2] at ht
    rw [hs]
    have := lerp_one_close fma (v := fun p => v (linCell grid x + p.val)) ht v0 v1 hB
    rw [hic]
    exact this

end Ieee

/-- Error growth over the axes: axis `k` adds a relative error of `δ k`. -/
theorem axisByAxis_close {f : Format} {M : ℚ} (hM : 0 ≤ M) : ∀ {N : Nat} (S : Fin N → Nat → Prop)
    (op : Fin N → (Nat → Ieee f) → Ieee f) (δ : Fin N → ℚ) (i : Fin N → Nat) (g : (Fin N → Nat) → Ieee f)
    (_ : ∀ k, 0 ≤ δ k) (_ : ∀ k, S k (i k)) (_ : 2 * ((∏ k, (1 + δ k)) * M) ≤ f.omega)
    (_ : ∀ k (v : Nat → Ieee f) B, 2 * B ≤ f.omega →
      (∀ j, S k j → Ieee.Finite (v j) ∧ |Ieee.val (v j)| ≤ B) →
      Ieee.Finite (op k v) ∧ |Ieee.val (op k v) - Ieee.val (v (i k))| ≤ δ k * B)
    (_ : ∀ loc : Fin N → Nat, (∀ k, S k (loc k)) → Ieee.Finite (g loc) ∧ |Ieee.val (g loc)| ≤ M),
    Ieee.Finite (axisByAxis op g) ∧
      |Ieee.val (axisByAxis op g) - Ieee.val (g i)| ≤ ((∏ k, (1 + δ k)) - 1) * M
  | 0, S, op, δ, i, g, _, _, _, _, hg => by
    have e : (fun k : Fin 0 => k.elim0) = i := funext fun k => k.elim0
    rw [axisByAxis, e]
    refine ⟨(hg i fun k => k.elim0).1, ?_⟩
    simp
  | N + 1, S, op, δ, i, g, hδ, hi, hΩ, hop, hg => by
    rw [Fin.prod_univ_castSucc] at hΩ ⊢
    set P := ∏ k : Fin N, (1 + δ k.castSucc) with hP
    have hP1 : 1 ≤ P := by
      rw [hP]
      have := Finset.prod_le_prod (s := Finset.univ) (f := fun _ : Fin N => (1 : ℚ))
        (g := fun k => 1 + δ k.castSucc) (fun _ _ => zero_le_one) fun k _ => by
          linarith [hδ k.castSucc]
      simpa using this
    have hl := hδ (Fin.last N)
    have hPM : 0 ≤ P * M := mul_nonneg (by linarith) hM
    have hΩ' : 2 * (P * M) ≤ f.omega := by nlinarith [mul_nonneg hl hPM]
    have hsn : ∀ (loc : Fin N → Nat) j, (∀ k : Fin N, S k.castSucc (loc k)) → S (Fin.last N) j →
        ∀ k, S k (Fin.snoc (α := fun _ => Nat) loc j k) := by
      intro loc j h1 h2 k
      refine Fin.lastCases ?_ (fun k => ?_) k
      · simpa using h2
      · simpa using h1 k
    have ih : ∀ j, S (Fin.last N) j → _ := fun j hj =>
      axisByAxis_close hM (fun k => S k.castSucc) (fun k => op k.castSucc) (fun k => δ k.castSucc)
        (fun k => i k.castSucc) (fun loc => g (Fin.snoc (α := fun _ => Nat) loc j))
        (fun k => hδ _) (fun k => hi _) hΩ' (fun k => hop _) fun loc hl => hg _ (hsn loc j hl hj)
    have hbig : ∀ j, S (Fin.last N) j → |Ieee.val (g (Fin.snoc (α := fun _ => Nat)
        (fun k : Fin N => i k.castSucc) j))| ≤ M := fun j hj =>
      (hg _ (hsn _ j (fun k => hi _) hj)).2
    have hB : ∀ j, S (Fin.last N) j → |Ieee.val (axisByAxis (fun k : Fin N => op k.castSucc)
        fun loc => g (Fin.snoc (α := fun _ => Nat) loc j))| ≤ P * M := by
      intro j hj
      have h1 := (ih j hj).2
      have h2 := hbig j hj
      rw [abs_le] at h1 h2 ⊢
      constructor <;> nlinarith [h1.1, h1.2, h2.1, h2.2]
    rw [axisByAxis]
    obtain ⟨r1, r2⟩ := hop (Fin.last N) (fun j => axisByAxis (fun k : Fin N => op k.castSucc)
        fun loc => g (Fin.snoc (α := fun _ => Nat) loc j)) (P * M) hΩ' fun j hj => ⟨(ih j hj).1, hB j hj⟩
    refine ⟨r1, ?_⟩
    have h1 := (ih _ (hi (Fin.last N))).2
    have e : Fin.snoc (α := fun _ => Nat) (fun k : Fin N => i k.castSucc) (i (Fin.last N)) = i :=
      Fin.snoc_init_self i
    rw [e] at h1
    have := abs_sub_le _ _ _ |>.trans (add_le_add r2 h1)
    refine this.trans (le_of_eq ?_)
    ring

end Interpn
