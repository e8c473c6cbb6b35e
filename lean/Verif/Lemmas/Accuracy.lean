import Verif.Lemmas.Pieces
import Verif.Spec.Accuracy
import Mathlib.Tactic.Positivity

/-! Size of the weights of the cubic rule, and accumulation of per-axis errors. -/

set_option autoImplicit false
set_option linter.unusedSectionVars false

namespace Interpn

section
variable {K : Type} [Field K] [LinearOrder K] [IsStrictOrderedRing K] [FloorRing K]

theorem four_weights {A B α β ν F0 F1 F2 F3 Bi Bo : K} (hA : 0 ≤ A) (hB : 0 ≤ B) (hα : 0 ≤ α)
    (hβ : 0 ≤ β) (hs : A + B = 1 + α + β) (hν : α + β ≤ ν) (h1 : |F1| ≤ Bi) (h2 : |F2| ≤ Bi)
    (h0 : |F0| ≤ Bo) (h3 : |F3| ≤ Bo) :
    |A * F1 + B * F2 - α * F0 - β * F3| ≤ (1 + ν) * Bi + ν * Bo := by
  have hBi : 0 ≤ Bi := (abs_nonneg _).trans h1
  have hBo : 0 ≤ Bo := (abs_nonneg _).trans h0
  have e1 : |A * F1| ≤ A * Bi := by rw [abs_mul, abs_of_nonneg hA]; exact mul_le_mul_of_nonneg_left h1 hA
  have e2 : |B * F2| ≤ B * Bi := by rw [abs_mul, abs_of_nonneg hB]; exact mul_le_mul_of_nonneg_left h2 hB
  have e0 : |α * F0| ≤ α * Bo := by rw [abs_mul, abs_of_nonneg hα]; exact mul_le_mul_of_nonneg_left h0 hα
  have e3 : |β * F3| ≤ β * Bo := by rw [abs_mul, abs_of_nonneg hβ]; exact mul_le_mul_of_nonneg_left h3 hβ
  have t1 := abs_sub (A * F1 + B * F2 - α * F0) (β * F3)
  have t2 := abs_sub (A * F1 + B * F2) (α * F0)
  have t3 := abs_add_le (A * F1) (B * F2)
  have m1 : (A + B) * Bi ≤ (1 + ν) * Bi := mul_le_mul_of_nonneg_right (by linarith) hBi
  have m2 : (α + β) * Bo ≤ ν * Bo := mul_le_mul_of_nonneg_right hν hBo
  linarith

/-- `r² / (1 + r)` increases with `r`. -/
theorem ratio_mono {r ρ : K} (hr : 0 < r) (h : r ≤ ρ) : r ^ 2 / (1 + r) ≤ ρ ^ 2 / (1 + ρ) := by
  rw [div_le_div_iff₀ (by linarith) (by linarith)]
  nlinarith [mul_nonneg hr.le (sub_nonneg.2 h), mul_nonneg (hr.le.trans h) (sub_nonneg.2 h),
    mul_nonneg (mul_nonneg hr.le (hr.le.trans h)) (sub_nonneg.2 h)]

theorem quarter {t : K} : t * (1 - t) ≤ 1 / 4 := by nlinarith [sq_nonneg (t - 1 / 2)]

/-- The amount by which negative weights can amplify values: `ρ² / (4 (1 + ρ))`. -/
theorem negWeight_le {t r s ρ : K} (ht0 : 0 ≤ t) (ht1 : t ≤ 1) (hr : 0 < r) (hs : 0 < s)
    (hrρ : r ≤ ρ) (hsρ : s ≤ ρ) :
    t * (1 - t) ^ 2 * (r ^ 2 / (1 + r)) + t ^ 2 * (1 - t) * (s ^ 2 / (1 + s)) ≤
      ρ ^ 2 / (4 * (1 + ρ)) := by
  have h1 := ratio_mono hr hrρ
  have h2 := ratio_mono hs hsρ
  have h1' : 0 ≤ 1 - t := by linarith
  have a1 := mul_le_mul_of_nonneg_left h1 (show 0 ≤ t * (1 - t) ^ 2 by positivity)
  have a2 := mul_le_mul_of_nonneg_left h2 (show 0 ≤ t ^ 2 * (1 - t) by positivity)
  have hρ : 0 < ρ := hr.trans_le hrρ
  have a3 := mul_le_mul_of_nonneg_right (quarter (t := t)) (show 0 ≤ ρ ^ 2 / (1 + ρ) by positivity)
  have e : ρ ^ 2 / (4 * (1 + ρ)) = 1 / 4 * (ρ ^ 2 / (1 + ρ)) := by
    field_simp
  rw [e]
  nlinarith

theorem interior_bound {t r s ρ F0 F1 F2 F3 Bi Bo : K} (ht0 : 0 ≤ t) (ht1 : t ≤ 1) (hr : 0 < r)
    (hs : 0 < s) (hrρ : r ≤ ρ) (hsρ : s ≤ ρ) (h1 : |F1| ≤ Bi) (h2 : |F2| ≤ Bi)
    (h0 : |F0| ≤ Bo) (h3 : |F3| ≤ Bo) :
    |(1 + 2 * t) * (1 - t) ^ 2 * F1 + t * (1 - t) ^ 2 * ((F2 - F1 + r ^ 2 * (F1 - F0)) / (1 + r)) +
        t ^ 2 * (3 - 2 * t) * F2 +
        t ^ 2 * (t - 1) * ((s ^ 2 * (F3 - F2) + (F2 - F1)) / (1 + s))| ≤
      (1 + ρ ^ 2 / (4 * (1 + ρ))) * Bi + ρ ^ 2 / (4 * (1 + ρ)) * Bo := by
  have h1' : 0 ≤ 1 - t := by linarith
  have hA : 0 ≤ (1 + 2 * t) * (1 - t) ^ 2 + t * (1 - t) ^ 2 * (r - 1) + t ^ 2 * (1 - t) / (1 + s) := by
    have : 0 ≤ (1 + t + t * r) * (1 - t) ^ 2 + t ^ 2 * (1 - t) / (1 + s) := by positivity
    linarith
  have hB : 0 ≤ t ^ 2 * (3 - 2 * t) + t * (1 - t) ^ 2 / (1 + r) + t ^ 2 * (1 - t) * (s - 1) := by
    have : 0 ≤ t ^ 2 * (1 + (1 - t) + (1 - t) * s) + t * (1 - t) ^ 2 / (1 + r) := by
      have : 0 ≤ 1 + (1 - t) + (1 - t) * s := by positivity
      positivity
    linarith
  have key := four_weights (F0 := F0) (F1 := F1) (F2 := F2) (F3 := F3) (Bi := Bi) (Bo := Bo) hA hB
    (α := t * (1 - t) ^ 2 * (r ^ 2 / (1 + r))) (β := t ^ 2 * (1 - t) * (s ^ 2 / (1 + s)))
    (by positivity) (by positivity)
    (by field_simp; ring) (negWeight_le ht0 ht1 hr hs hrρ hsρ) h1 h2 h0 h3
  refine le_of_eq_of_le ?_ key
  congr 1
  field_simp
  ring

theorem firstCell_bound {t s ρ F1 F2 F3 Bi Bo : K} (ht0 : 0 ≤ t) (ht1 : t ≤ 1)
    (hs : 0 < s) (hsρ : s ≤ ρ) (h1 : |F1| ≤ Bi) (h2 : |F2| ≤ Bi) (h3 : |F3| ≤ Bo) :
    |(1 + 2 * t) * (1 - t) ^ 2 * F1 +
        t * (1 - t) ^ 2 * (2 * (F2 - F1) - (s ^ 2 * (F3 - F2) + (F2 - F1)) / (1 + s)) +
        t ^ 2 * (3 - 2 * t) * F2 +
        t ^ 2 * (t - 1) * ((s ^ 2 * (F3 - F2) + (F2 - F1)) / (1 + s))| ≤
      (1 + ρ ^ 2 / (4 * (1 + ρ))) * Bi + ρ ^ 2 / (4 * (1 + ρ)) * Bo := by
  have h1' : 0 ≤ 1 - t := by linarith
  have hn := negWeight_le ht0 ht1 hs hs hsρ hsρ
  have key := four_weights (F0 := F3) (F1 := F1) (F2 := F2) (F3 := F3) (Bi := Bi) (Bo := Bo)
    (A := (1 - t) ^ 2 + t * (1 - t) / (1 + s)) (B := t + t * (1 - t) * s)
    (α := t * (1 - t) ^ 2 * (s ^ 2 / (1 + s))) (β := t ^ 2 * (1 - t) * (s ^ 2 / (1 + s)))
    (by positivity) (by positivity) (by positivity) (by positivity)
    (by field_simp; ring) hn h1 h2 h3 h3
  refine le_of_eq_of_le ?_ key
  congr 1
  field_simp
  ring

theorem lastCell_bound {t r ρ F0 F1 F2 Bi Bo : K} (ht0 : 0 ≤ t) (ht1 : t ≤ 1)
    (hr : 0 < r) (hrρ : r ≤ ρ) (h1 : |F1| ≤ Bi) (h2 : |F2| ≤ Bi) (h0 : |F0| ≤ Bo) :
    |(1 + 2 * t) * (1 - t) ^ 2 * F1 + t * (1 - t) ^ 2 * ((F2 - F1 + r ^ 2 * (F1 - F0)) / (1 + r)) +
        t ^ 2 * (3 - 2 * t) * F2 +
        t ^ 2 * (t - 1) * (2 * (F2 - F1) - (F2 - F1 + r ^ 2 * (F1 - F0)) / (1 + r))| ≤
      (1 + ρ ^ 2 / (4 * (1 + ρ))) * Bi + ρ ^ 2 / (4 * (1 + ρ)) * Bo := by
  have h1' : 0 ≤ 1 - t := by linarith
  have hn := negWeight_le ht0 ht1 hr hr hrρ hrρ
  have key := four_weights (F0 := F0) (F1 := F1) (F2 := F2) (F3 := F0) (Bi := Bi) (Bo := Bo)
    (A := (1 - t) + t * (1 - t) * r) (B := t ^ 2 + t * (1 - t) / (1 + r))
    (α := t * (1 - t) ^ 2 * (r ^ 2 / (1 + r))) (β := t ^ 2 * (1 - t) * (r ^ 2 / (1 + r)))
    (by positivity) (by positivity) (by positivity) (by positivity)
    (by field_simp; ring) hn h1 h2 h0 h0
  refine le_of_eq_of_le ?_ key
  congr 1
  field_simp
  ring

variable {n : Nat} {p : Nat → K} {x : K} {c : Nat}

/-- In the grid range, the cubic piece is bounded by the values at the ends of the cell (bounded
by `Bi`) and, with a small factor, by the values at the nodes next to the cell (bounded by `Bo`). -/
theorem cubicPiece_bound (hi : Incr n p) (hn : 4 ≤ n) (lin : Bool) (hc : InCell n p x c)
    (hx : InRange n p x) {ρ : K} (hρ : MeshRatio n p ρ) {f : Nat → K} {Bi Bo : K}
    (h1 : |f c| ≤ Bi) (h2 : |f (c + 1)| ≤ Bi)
    (ho : ∀ j < n, c ≤ j + 1 → j ≤ c + 2 → |f j| ≤ Bo) :
    |cubicPiece n p f lin c x| ≤
      (1 + ρ ^ 2 / (4 * (1 + ρ))) * Bi + ρ ^ 2 / (4 * (1 + ρ)) * Bo := by
  obtain ⟨ht0, ht1⟩ := weight_mem hi hc hx
  have hw : 0 < p (c + 1) - p c := sub_pos.2 (hi c hc.1)
  unfold cubicPiece
  rw [if_neg (fun hh => absurd hh.2 (not_lt.2 hx.1)), if_neg (fun hh => absurd hh.2 (not_lt.2 hx.2))]
  unfold hermiteCubic
  simp only
  generalize (x - p c) / (p (c + 1) - p c) = t at *
  have right : c + 2 < n → (p (c + 1) - p c) * nodeSlope n p f (c + 1) =
        (((p (c + 1) - p c) / (p (c + 2) - p (c + 1))) ^ 2 * (f (c + 2) - f (c + 1)) +
          (f (c + 1) - f c)) / (1 + (p (c + 1) - p c) / (p (c + 2) - p (c + 1))) ∧
      0 < (p (c + 1) - p c) / (p (c + 2) - p (c + 1)) ∧
      (p (c + 1) - p c) / (p (c + 2) - p (c + 1)) ≤ ρ := by
    intro h
    have hw2 : 0 < p (c + 2) - p (c + 1) := sub_pos.2 (hi (c + 1) h)
    have hw3 : 0 < p (c + 2) - p c := by linarith
    refine ⟨?_, div_pos hw hw2, (div_le_iff₀ hw2).2 (hρ c h).1⟩
    rw [nodeSlope_inner h]
    have e : 1 + (p (c + 1) - p c) / (p (c + 2) - p (c + 1)) =
        (p (c + 2) - p c) / (p (c + 2) - p (c + 1)) := by
      field_simp; ring
    rw [e]
    field_simp
  have left : 0 < c → (p (c + 1) - p c) * nodeSlope n p f c =
        (f (c + 1) - f c + ((p (c + 1) - p c) / (p c - p (c - 1))) ^ 2 * (f c - f (c - 1))) /
          (1 + (p (c + 1) - p c) / (p c - p (c - 1))) ∧
      0 < (p (c + 1) - p c) / (p c - p (c - 1)) ∧
      (p (c + 1) - p c) / (p c - p (c - 1)) ≤ ρ := by
    intro h
    obtain ⟨d, rfl⟩ : ∃ d, c = d + 1 := ⟨c - 1, by omega⟩
    have hc1 := hc.1
    simp only [Nat.add_sub_cancel]
    have hw2 : 0 < p (d + 1) - p d := sub_pos.2 (hi d (by omega))
    have hw3 : 0 < p (d + 2) - p d := by
      have : p (d + 1 + 1) = p (d + 2) := rfl
      linarith
    refine ⟨?_, div_pos hw hw2, (div_le_iff₀ hw2).2 (hρ d (by omega)).2⟩
    rw [nodeSlope_inner (by omega)]
    have e : 1 + (p (d + 1 + 1) - p (d + 1)) / (p (d + 1) - p d) =
        (p (d + 2) - p d) / (p (d + 1) - p d) := by
      field_simp
      show _ = _
      simp only [show d + 1 + 1 = d + 2 from rfl]
      ring
    rw [e]
    simp only [show d + 1 + 1 = d + 2 from rfl] at hw ⊢
    field_simp
  rcases Nat.eq_zero_or_pos c with h0 | h0
  · subst h0
    have hr := right (by omega)
    have hm : (p 1 - p 0) * nodeSlope n p f 0 =
        2 * (f 1 - f 0) - (p 1 - p 0) * nodeSlope n p f 1 := by
      rw [nodeSlope_first (by omega)]
      simp only [zero_add] at hw
      field_simp
    have key := firstCell_bound ht0 ht1 hr.2.1 hr.2.2 h1 h2 (ho 2 (by omega) (by omega) (by omega))
    refine le_of_eq_of_le ?_ key
    simp only [zero_add] at hr ⊢
    rw [← hr.1, ← hm]
    congr 1
    ring
  · rcases Nat.lt_or_ge (c + 2) n with h3 | h3
    · have hr := right h3
      have hl := left h0
      have key := interior_bound ht0 ht1 hl.2.1 hr.2.1 hl.2.2 hr.2.2 h1 h2
        (ho (c - 1) (by omega) (by omega) (by omega)) (ho (c + 2) h3 (by omega) le_rfl)
      refine le_of_eq_of_le ?_ key
      rw [← hr.1, ← hl.1]
      congr 1
      ring
    · have hl := left h0
      have hm : (p (c + 1) - p c) * nodeSlope n p f (c + 1) =
          2 * (f (c + 1) - f c) - (p (c + 1) - p c) * nodeSlope n p f c := by
        rw [nodeSlope_last h0 (by have := hc.1; omega)]
        field_simp
      have key := lastCell_bound ht0 ht1 hl.2.1 hl.2.2 h1 h2
        (ho (c - 1) (by have := hc.1; omega) (by omega) (by omega))
      refine le_of_eq_of_le ?_ key
      rw [← hl.1, ← hm]
      congr 1
      ring

/-! ### Accumulation over the axes -/

/-- If every axis rule amplifies differences by at most `Λ ≥ 1`, and reproduces the sampled
function up to `E k`, the errors add up. -/
theorem axisByAxis_error {Λ : K} (hΛ : 1 ≤ Λ) : ∀ {N : Nat} (S : Fin N → Nat → Prop)
    (R : Fin N → K → Prop) (op : Fin N → (Nat → K) → K) (q : Fin N → Nat → K) (x : Fin N → K)
    (F : (Fin N → K) → K) (E : Fin N → K)
    (_ : ∀ k f f' ε, (∀ i, S k i → |f i - f' i| ≤ ε) → |op k f - op k f'| ≤ Λ * ε)
    (_ : ∀ k i, S k i → R k (q k i)) (_ : ∀ k, R k (x k))
    (_ : ∀ k y, (∀ j, R j (y j)) →
      |op k (fun i => F (Function.update y k (q k i))) - F (Function.update y k (x k))| ≤ E k),
    |axisByAxis op (fun loc => F fun k => q k (loc k)) - F x| ≤ Λ ^ (N - 1) * ∑ k, E k
  | 0, S, R, op, q, x, F, E, _, _, _, _ => by
    simp only [axisByAxis, Finset.univ_eq_empty, Finset.sum_empty, mul_zero]
    have : (fun k : Fin 0 => q k ((fun k : Fin 0 => k.elim0) k)) = x := funext fun k => k.elim0
    rw [this, sub_self, abs_zero]
  | N + 1, S, R, op, q, x, F, E, hop, hq, hx, hE => by
    have hinner : ∀ i, S (Fin.last N) i →
        |axisByAxis (fun k : Fin N => op k.castSucc) (fun loc =>
            F fun k => q k ((Fin.snoc (α := fun _ => Nat) loc i : Fin (N + 1) → Nat) k)) -
          F (Function.update x (Fin.last N) (q (Fin.last N) i))| ≤
        Λ ^ (N - 1) * ∑ k : Fin N, E k.castSucc := by
      intro i hi
      have key := axisByAxis_error hΛ (fun k : Fin N => S k.castSucc) (fun k => R k.castSucc)
        (fun k => op k.castSucc) (fun k => q k.castSucc) (fun k => x k.castSucc)
        (fun y => F (Fin.snoc (α := fun _ => K) y (q (Fin.last N) i))) (fun k => E k.castSucc)
        (fun k f f' ε h => hop k.castSucc f f' ε h) (fun k => hq k.castSucc) (fun k => hx k.castSucc)
        (fun k y hy => by
          have := hE k.castSucc (Fin.snoc (α := fun _ => K) y (q (Fin.last N) i)) (fun j => by
            refine Fin.lastCases ?_ (fun j => ?_) j
            · simpa using hq _ _ hi
            · simpa using hy j)
          simpa only [Fin.snoc_update] using this)
      convert key using 3
      · congr 1
        funext loc
        congr 1
        funext k
        refine Fin.lastCases ?_ (fun j => ?_) k <;> simp
      · congr 1
        funext k
        refine Fin.lastCases ?_ (fun j => ?_) k
        · simp
        · simp [Fin.snoc_castSucc, (Fin.castSucc_lt_last j).ne]
    have hstep := hop (Fin.last N) _ (fun i => F (Function.update x (Fin.last N) (q (Fin.last N) i)))
      _ hinner
    have hlast := hE (Fin.last N) x hx
    rw [Function.update_eq_self] at hlast
    rw [axisByAxis]
    have htri := abs_sub_le
      (op (Fin.last N) fun i => axisByAxis (fun k : Fin N => op k.castSucc) fun loc =>
        F fun k => q k ((Fin.snoc (α := fun _ => Nat) loc i : Fin (N + 1) → Nat) k))
      (op (Fin.last N) fun i => F (Function.update x (Fin.last N) (q (Fin.last N) i))) (F x)
    refine htri.trans ((add_le_add hstep hlast).trans ?_)
    rw [Fin.sum_univ_castSucc, mul_add]
    have hEl : 0 ≤ E (Fin.last N) := (abs_nonneg _).trans hlast
    refine add_le_add ?_ ?_
    · rcases N with _ | N
      · simp
      · simp only [Nat.add_sub_cancel]
        rw [pow_succ]
        refine le_of_eq ?_
        ring
    · exact le_mul_of_one_le_left hEl (one_le_pow₀ hΛ)

/-! ### Monotone data -/

theorem mono_of_step {n : Nat} {f : Nat → K} (hf : ∀ i, i + 1 < n → f i ≤ f (i + 1)) {i j : Nat}
    (hij : i ≤ j) (hj : j < n) : f i ≤ f j := by
  induction j with
  | zero => rw [Nat.le_zero.1 hij]
  | succ j ih =>
    rcases Nat.lt_or_ge i (j + 1) with h | h
    · exact (ih (by omega) (by omega)).trans (hf j hj)
    · rw [Nat.le_antisymm hij h]

theorem linPiece_mono {n : Nat} {p f : Nat → K} {x z : K} {c c' : Nat} (hi : Incr n p)
    (hf : ∀ i, i + 1 < n → f i ≤ f (i + 1)) (hxz : x ≤ z) (hc : InCell n p x c)
    (hc' : InCell n p z c') : linPiece p f c x ≤ linPiece p f c' z := by
  have same : ∀ d, d + 1 < n → ∀ u v : K, u ≤ v → linPiece p f d u ≤ linPiece p f d v := by
    intro d hd u v huv
    have hw : 0 < p (d + 1) - p d := sub_pos.2 (hi d hd)
    unfold linPiece
    have h1 : (u - p d) / (p (d + 1) - p d) ≤ (v - p d) / (p (d + 1) - p d) :=
      div_le_div_of_nonneg_right (by linarith) hw.le
    have h2 := mul_le_mul_of_nonneg_right h1 (sub_nonneg.2 (hf d hd))
    linarith
  rcases Nat.lt_trichotomy c c' with h | h | h
  · have h1 : x ≤ p (c + 1) := hc.2.2.resolve_left (by have := hc'.1; omega)
    have h2 : p c' ≤ z := hc'.2.1.resolve_left (by omega)
    have h3 := same c hc.1 _ _ h1
    have h4 := same c' hc'.1 _ _ h2
    rw [linPiece_right f (hi c hc.1)] at h3
    rw [linPiece_left] at h4
    exact h3.trans ((mono_of_step hf h (by have := hc'.1; omega)).trans h4)
  · subst h; exact same c hc.1 _ _ hxz
  · have h1 : p c ≤ x := hc.2.1.resolve_left (by omega)
    have h2 : z ≤ p (c' + 1) := hc'.2.2.resolve_left (by have := hc.1; omega)
    have h3 := hi.le (show c' + 1 ≤ c from h) (by have := hc.1; omega)
    have h4 : x = z := le_antisymm hxz (h2.trans (h3.trans h1))
    subst h4
    exact (linPiece_unique hi f hc hc').le

end

end Interpn
