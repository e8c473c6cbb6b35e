import Verif.Props.Accuracy
import Verif.Lemmas.CubicLip
import Verif.Lemmas.TensorAlg

/-! How well differences of axis-by-axis results reproduce differences of the sampled function. -/

set_option autoImplicit false
set_option linter.unusedSectionVars false

namespace Interpn

section
variable {K : Type} [Field K] [LinearOrder K] [IsStrictOrderedRing K] [FloorRing K]

theorem LinearOn.sub {n : Nat} {φ : (Nat → K) → K} (h : LinearOn n φ) (f f' : Nat → K) :
    φ (fun i => f i - f' i) = φ f - φ f' := by
  have h1 := h.add f fun i => -1 * f' i
  rw [h.smul] at h1
  have e : (fun i => f i - f' i) = fun i => f i + -1 * f' i := funext fun i => by ring
  rw [e, h1]; ring

/-- The rule of axis `j` is replaced (`op` by `op'`), which stands for moving coordinate `j` of the
observation from `x j` to `z`. The change of the result reproduces the change of the sampled function
if the change of the rule depends only on slopes of the data (`hD`) and reproduces the change of the
function on the axis (`hDF`), and the other axes reproduce differences of the function (`hE`). -/
theorem axisByAxis_error_vary {Λ C : K} (hΛ : 1 ≤ Λ) (hC : 1 ≤ C) :
    ∀ {N : Nat} (n : Fin N → Nat) (R : Fin N → K → Prop) (op op' : Fin N → (Nat → K) → K)
    (q : Fin N → Nat → K) (x : Fin N → K) (z : K) (F : (Fin N → K) → K) (E : Fin N → K) (j : Fin N)
    (_ : ∀ k, 0 ≤ E k) (_ : ∀ k, LinearOn (n k) (op k))
    (_ : ∀ k f f' ε, (∀ i, i < n k → |f i - f' i| ≤ ε) → |op k f - op k f'| ≤ Λ * ε)
    (_ : ∀ k, k ≠ j → op' k = op k)
    (_ : ∀ k i, i < n k → R k (q k i)) (_ : ∀ k, R k (x k)) (_ : R j z)
    (_ : ∀ f f' B, (∀ i, i + 1 < n j →
        |f (i + 1) - f' (i + 1) - (f i - f' i)| ≤ B * |q j (i + 1) - q j i|) →
      |op' j f - op j f - (op' j f' - op j f')| ≤ C * B * |z - x j|)
    (_ : ∀ y, (∀ k, R k (y k)) →
      |op' j (fun i => F (Function.update y j (q j i))) -
          op j (fun i => F (Function.update y j (q j i))) -
        (F (Function.update y j z) - F (Function.update y j (x j)))| ≤ E j * |z - x j|)
    (_ : ∀ k, k ≠ j → ∀ y, (∀ k, R k (y k)) → ∀ a b, R j a → R j b →
      |op k (fun i => F (Function.update (Function.update y j b) k (q k i)) -
          F (Function.update (Function.update y j a) k (q k i))) -
        (F (Function.update (Function.update y j b) k (x k)) -
          F (Function.update (Function.update y j a) k (x k)))| ≤ E k * |b - a|),
    |axisByAxis op' (fun loc => F fun k => q k (loc k)) -
        axisByAxis op (fun loc => F fun k => q k (loc k)) - (F (Function.update x j z) - F x)| ≤
      Λ ^ (N - 1) * (∑ k, if k = j then E k else C * E k) * |z - x j|
  | 0, _, _, _, _, _, _, _, _, _, j, _, _, _, _, _, _, _, _, _, _ => j.elim0
  | N + 1, n, R, op, op', q, x, z, F, E, j, hE0, hlin, hop, hsame, hq, hx, hz, hD, hDF, hE => by
    have hsnoc : ∀ (loc : Fin N → Nat) (i : Nat),
        (fun k => q k ((Fin.snoc (α := fun _ => Nat) loc i : Fin (N + 1) → Nat) k)) =
          Fin.snoc (α := fun _ => K) (fun k : Fin N => q k.castSucc (loc k)) (q (Fin.last N) i) := by
      intro loc i
      funext k
      refine Fin.lastCases ?_ (fun j => ?_) k <;> simp
    have hxs : ∀ v : K, Function.update x (Fin.last N) v =
        Fin.snoc (α := fun _ => K) (fun k : Fin N => x k.castSucc) v := by
      intro v
      funext k
      refine Fin.lastCases ?_ (fun j => ?_) k
      · simp
      · simp [(Fin.castSucc_lt_last j).ne]
    have hΛN : (1 : K) ≤ Λ ^ N := one_le_pow₀ hΛ
    have hΛN1 : Λ ^ (N - 1) ≤ Λ ^ N := pow_le_pow_right₀ hΛ (by omega)
    have hδ := abs_nonneg (z - x j)
    rw [axisByAxis, axisByAxis, Nat.add_sub_cancel, Fin.sum_univ_castSucc]
    simp only [hsnoc]
    revert hδ hE hDF hD hz hsame
    refine Fin.lastCases (fun hsame hz hD hDF hE hδ => ?_) (fun j hsame hz hD hDF hE hδ => ?_) j
    · -- the moved axis is the last one
      have e : (fun k : Fin N => op' k.castSucc) = fun k => op k.castSucc :=
        funext fun k => hsame _ (Fin.castSucc_lt_last k).ne
      rw [e]
      set r : Nat → K := fun i => axisByAxis (fun k : Fin N => op k.castSucc) fun loc =>
        F (Fin.snoc (α := fun _ => K) (fun k : Fin N => q k.castSucc (loc k)) (q (Fin.last N) i))
        with hr
      set s : Nat → K := fun i => F (Function.update x (Fin.last N) (q (Fin.last N) i)) with hs
      have h1 := hD r s (Λ ^ (N - 1) * ∑ k : Fin N, E k.castSucc) (fun i hi => by
        have hlc := axisByAxis_lincomb (n := fun k : Fin N => n k.castSucc)
          (fun k : Fin N => op k.castSucc) (fun k => hlin k.castSucc)
          (fun loc => F (Fin.snoc (α := fun _ => K) (fun k : Fin N => q k.castSucc (loc k))
            (q (Fin.last N) (i + 1))))
          (fun loc => F (Fin.snoc (α := fun _ => K) (fun k : Fin N => q k.castSucc (loc k))
            (q (Fin.last N) i))) 1 (-1)
        simp only [one_mul, neg_one_mul, ← sub_eq_add_neg] at hlc
        have key := axisByAxis_error hΛ (fun (k : Fin N) i => i < n k.castSucc)
          (fun k => R k.castSucc) (fun k => op k.castSucc) (fun k => q k.castSucc)
          (fun k => x k.castSucc)
          (fun y => F (Fin.snoc (α := fun _ => K) y (q (Fin.last N) (i + 1))) -
            F (Fin.snoc (α := fun _ => K) y (q (Fin.last N) i)))
          (fun k => E k.castSucc * |q (Fin.last N) (i + 1) - q (Fin.last N) i|)
          (fun k f f' ε h => hop k.castSucc f f' ε h) (fun k => hq k.castSucc)
          (fun k => hx k.castSucc)
          (fun k y hy => by
            have := hE k.castSucc (Fin.castSucc_lt_last k).ne
              (Fin.snoc (α := fun _ => K) y (x (Fin.last N))) (fun j => by
                refine Fin.lastCases ?_ (fun j => ?_) j
                · simpa using hx _
                · simpa using hy j)
              (q (Fin.last N) i) (q (Fin.last N) (i + 1)) (hq _ _ (by omega)) (hq _ _ hi)
            simpa only [Fin.update_snoc_last, ← Fin.snoc_update] using this)
        rw [hlc, ← Finset.sum_mul, ← mul_assoc] at key
        have e2 : r (i + 1) - s (i + 1) - (r i - s i) = (r (i + 1) - r i) -
            (F (Fin.snoc (α := fun _ => K) (fun k : Fin N => x k.castSucc) (q (Fin.last N) (i + 1))) -
              F (Fin.snoc (α := fun _ => K) (fun k : Fin N => x k.castSucc) (q (Fin.last N) i))) := by
          rw [hs]; simp only [hxs]; ring
        rw [e2]
        exact key)
      have h2 := hDF x hx
      rw [Function.update_eq_self] at h2
      have htri := abs_add_le (op' (Fin.last N) r - op (Fin.last N) r -
        (op' (Fin.last N) s - op (Fin.last N) s)) (op' (Fin.last N) s - op (Fin.last N) s -
          (F (Function.update x (Fin.last N) z) - F x))
      rw [sub_add_sub_cancel] at htri
      refine htri.trans ((add_le_add h1 h2).trans ?_)
      rw [← add_mul]
      refine mul_le_mul_of_nonneg_right ?_ hδ
      have es : ∀ k : Fin N, (if k.castSucc = Fin.last N then E k.castSucc else C * E k.castSucc) =
          C * E k.castSucc := fun k => if_neg (Fin.castSucc_lt_last k).ne
      simp only [es, if_true]
      rw [← Finset.mul_sum]
      have hS : 0 ≤ ∑ k : Fin N, E k.castSucc := Finset.sum_nonneg fun k _ => hE0 _
      have hC0 : 0 ≤ C := by linarith
      have a1 : Λ ^ (N - 1) * (C * ∑ k : Fin N, E k.castSucc) ≤
          Λ ^ N * (C * ∑ k : Fin N, E k.castSucc) :=
        mul_le_mul_of_nonneg_right hΛN1 (mul_nonneg hC0 hS)
      have a2 := le_mul_of_one_le_left (hE0 (Fin.last N)) hΛN
      rw [mul_add]
      refine add_le_add (le_trans (le_of_eq (by ring)) a1) a2
    · -- another axis
      rw [hsame (Fin.last N) (Fin.castSucc_lt_last j).ne', ← (hlin (Fin.last N)).sub]
      obtain ⟨M, rfl⟩ : ∃ M, N = M + 1 := ⟨N - 1, by have := j.isLt; omega⟩
      set T : Nat → K := fun i =>
        F (Function.update (Function.update x j.castSucc z) (Fin.last (M + 1)) (q (Fin.last (M + 1)) i)) -
        F (Function.update x (Fin.last (M + 1)) (q (Fin.last (M + 1)) i)) with hT
      have hupd : ∀ v w : K, Function.update (Function.update x j.castSucc v) (Fin.last (M + 1)) w =
          Fin.snoc (α := fun _ => K) (Function.update (fun k : Fin (M + 1) => x k.castSucc) j v) w := by
        intro v w
        funext k
        refine Fin.lastCases ?_ (fun i => ?_) k
        · simp
        · by_cases h : i = j
          · subst h; simp [(Fin.castSucc_lt_last i).ne]
          · have h' : i.castSucc ≠ j.castSucc := fun h' => h (Fin.castSucc_injective _ h')
            simp [(Fin.castSucc_lt_last i).ne, h, h']
      have hstep := hop (Fin.last (M + 1)) _ T
        (Λ ^ M * (∑ k : Fin (M + 1), if k = j then E k.castSucc else C * E k.castSucc) *
          |z - x j.castSucc|) (fun i hi => by
        have ih := axisByAxis_error_vary hΛ hC (fun k : Fin (M + 1) => n k.castSucc)
          (fun k => R k.castSucc) (fun k => op k.castSucc) (fun k => op' k.castSucc)
          (fun k => q k.castSucc) (fun k => x k.castSucc) z
          (fun y => F (Fin.snoc (α := fun _ => K) y (q (Fin.last (M + 1)) i)))
          (fun k => E k.castSucc) j (fun k => hE0 _) (fun k => hlin _)
          (fun k f f' ε h => hop k.castSucc f f' ε h)
          (fun k hk => hsame _ fun h => hk (Fin.castSucc_injective _ h))
          (fun k => hq k.castSucc) (fun k => hx k.castSucc) hz hD
          (fun y hy => by
            have := hDF (Fin.snoc (α := fun _ => K) y (q (Fin.last (M + 1)) i)) (fun j => by
                refine Fin.lastCases ?_ (fun j => ?_) j
                · simpa using hq _ _ hi
                · simpa using hy j)
            simpa only [← Fin.snoc_update] using this)
          (fun k hk y hy a b ha hb => by
            have := hE k.castSucc (fun h => hk (Fin.castSucc_injective _ h))
              (Fin.snoc (α := fun _ => K) y (q (Fin.last (M + 1)) i)) (fun j => by
                refine Fin.lastCases ?_ (fun j => ?_) j
                · simpa using hq _ _ hi
                · simpa using hy j) a b ha hb
            simpa only [← Fin.snoc_update] using this)
        rw [Nat.add_sub_cancel] at ih
        simp only [hT, hupd, hxs]
        exact ih)
      have h2 := hE (Fin.last (M + 1)) (Fin.castSucc_lt_last j).ne' x hx (x j.castSucc) z (hx _) hz
      have htri := abs_sub_le (op (Fin.last (M + 1)) fun i =>
          axisByAxis (fun k : Fin (M + 1) => op' k.castSucc) (fun loc =>
            F (Fin.snoc (α := fun _ => K) (fun k : Fin (M + 1) => q k.castSucc (loc k))
              (q (Fin.last (M + 1)) i))) -
          axisByAxis (fun k : Fin (M + 1) => op k.castSucc) (fun loc =>
            F (Fin.snoc (α := fun _ => K) (fun k : Fin (M + 1) => q k.castSucc (loc k))
              (q (Fin.last (M + 1)) i))))
        (op (Fin.last (M + 1)) T) (F (Function.update x j.castSucc z) - F x)
      have e3 : ∀ v : K, Function.update (Function.update x j.castSucc v) (Fin.last (M + 1))
          (x (Fin.last (M + 1))) = Function.update x j.castSucc v := fun v => by
        have : x (Fin.last (M + 1)) = Function.update x j.castSucc v (Fin.last (M + 1)) := by
          rw [Function.update_of_ne (Fin.castSucc_lt_last j).ne']
        rw [this, Function.update_eq_self]
      rw [e3, e3, Function.update_eq_self] at h2
      refine htri.trans ((add_le_add hstep h2).trans ?_)
      have es : ∀ k : Fin (M + 1), (if k.castSucc = j.castSucc then E k.castSucc else
          C * E k.castSucc) = if k = j then E k.castSucc else C * E k.castSucc := fun k => by
        simp only [Fin.castSucc_inj]
      simp only [es]
      rw [if_neg (Fin.castSucc_lt_last j).ne', ← mul_assoc, ← mul_assoc, ← pow_succ', ← add_mul,
        mul_add]
      refine mul_le_mul_of_nonneg_right (add_le_add le_rfl ?_) hδ
      have := hE0 (Fin.last (M + 1))
      calc E (Fin.last (M + 1)) = 1 * (1 * E (Fin.last (M + 1))) := by ring
        _ ≤ Λ ^ (M + 1) * (C * E (Fin.last (M + 1))) :=
          mul_le_mul hΛN (mul_le_mul_of_nonneg_right hC this) (by linarith) (by linarith)

/-- An error that vanishes at the nodes and varies by at most `L` on each cell varies by at most `L`
on the grid. -/
theorem cells_glue {n : Nat} {p : Nat → K} (hi : Incr n p) {err : Nat → K → K} {L : K} (hL : 0 ≤ L)
    (hnode : ∀ c, c + 1 < n → err c (p c) = 0 ∧ err c (p (c + 1)) = 0)
    (hcell : ∀ c, c + 1 < n → ∀ x z, p c ≤ x → x ≤ z → z ≤ p (c + 1) →
      |err c z - err c x| ≤ L * |z - x|)
    {x z : K} {c d : Nat} (hc : InCell n p x c) (hd : InCell n p z d) (hx : InRange n p x)
    (hz : InRange n p z) : |err d z - err c x| ≤ L * |z - x| := by
  have main : ∀ {x z : K} {c d : Nat}, InCell n p x c → InCell n p z d → InRange n p x →
      InRange n p z → c < d → |err d z - err c x| ≤ L * |z - x| := by
    intro x z c d hc hd hx hz hcd
    obtain ⟨hx0, hx1⟩ := inRange_of_inCell hc hx
    obtain ⟨hz0, hz1⟩ := inRange_of_inCell hd hz
    have hm : p (c + 1) ≤ p d := hi.le hcd (by have := hd.1; omega)
    have h1 := hcell c hc.1 x _ hx0 hx1 le_rfl
    have h2 := hcell d hd.1 _ z le_rfl hz0 hz1
    rw [(hnode c hc.1).2] at h1
    rw [(hnode d hd.1).1] at h2
    rw [abs_of_nonneg (sub_nonneg.2 hx1)] at h1
    rw [abs_of_nonneg (sub_nonneg.2 hz0)] at h2
    rw [abs_of_nonneg (show 0 ≤ z - x by linarith)]
    have h3 := abs_add_le (err d z - 0) (0 - err c x)
    rw [sub_add_sub_cancel] at h3
    have h4 := mul_le_mul_of_nonneg_left (show p (c + 1) - x + (z - p d) ≤ z - x by linarith) hL
    linarith
  rcases lt_trichotomy c d with h | h | h
  · exact main hc hd hx hz h
  · subst h
    obtain ⟨hx0, hx1⟩ := inRange_of_inCell hc hx
    obtain ⟨hz0, hz1⟩ := inRange_of_inCell hd hz
    rcases le_total x z with h | h
    · exact hcell c hc.1 x z hx0 h hz1
    · rw [abs_sub_comm, abs_sub_comm z]
      exact hcell c hc.1 z x hz0 h hx1
  · rw [abs_sub_comm, abs_sub_comm z]
    exact main hd hc hz hx h

end

section
open Set
variable {n : Nat} {p : Nat → ℝ} {φ : ℝ → ℝ} {M h : ℝ}

/-- Differences of the linear interpolant reproduce differences of the function up to first order. -/
theorem linPiece_error_diff (hi : Incr n p) (hh : ∀ i, i + 1 < n → p (i + 1) - p i ≤ h)
    (hφ : SecondDerivBounded φ (p 0) (p (n - 1)) M) {x z : ℝ} {c d : Nat} (hc : InCell n p x c)
    (hd : InCell n p z d) (hx : InRange n p x) (hz : InRange n p z) :
    |linPiece p (fun i => φ (p i)) d z - linPiece p (fun i => φ (p i)) c x - (φ z - φ x)| ≤
      M / 2 * h * |z - x| := by
  have hnode : ∀ i, i < n → InRange n p (p i) := fun i h =>
    ⟨hi.le (by omega) h, hi.le (by omega) (by omega)⟩
  have hM : 0 ≤ M := by
    obtain ⟨_, _, h⟩ := hφ
    exact (abs_nonneg _).trans (h _ hx).2.2
  have hh0 : 0 ≤ h := (sub_pos.2 (hi c hc.1)).le.trans (hh c hc.1)
  have key := cells_glue hi (err := fun c x => linPiece p (fun i => φ (p i)) c x - φ x)
    (L := M / 2 * h) (by positivity) ?_ ?_ hc hd hx hz
  · rwa [sub_sub_sub_comm] at key
  · intro c hc
    have hw : p (c + 1) - p c ≠ 0 := (sub_pos.2 (hi c hc)).ne'
    simp only [linPiece]
    constructor
    · simp
    · rw [div_self hw]; ring
  · intro c hc x z hx0 hxz hz1
    have hw : 0 < p (c + 1) - p c := sub_pos.2 (hi c hc)
    have hsub : Icc (p c) (p (c + 1)) ⊆ Icc (p 0) (p (n - 1)) :=
      Icc_subset_Icc (hnode c (by omega)).1 (hnode (c + 1) hc).2
    obtain ⟨d1, d2, hdd⟩ := hφ
    set s := (φ (p (c + 1)) - φ (p c)) / (p (c + 1) - p c) with hs
    have hslope : ∀ y ∈ Icc (p c) (p (c + 1)), |s - d1 y| ≤ M / 2 * h := by
      intro y hy
      have t1 := taylor2 (fun z hz => (hdd z hz).1) (fun z hz => (hdd z hz).2.1)
        (fun z hz => (hdd z hz).2.2) (hsub hy) (hnode (c + 1) hc) 1 ⟨zero_le_one, le_rfl⟩
      have t0 := taylor2 (fun z hz => (hdd z hz).1) (fun z hz => (hdd z hz).2.1)
        (fun z hz => (hdd z hz).2.2) (hsub hy) (hnode c (by omega)) 1 ⟨zero_le_one, le_rfl⟩
      rw [one_mul, add_sub_cancel, mul_one, one_pow, mul_one, sq_abs] at t0 t1
      have e : s - d1 y = ((φ (p (c + 1)) - φ y - d1 y * (p (c + 1) - y)) -
          (φ (p c) - φ y - d1 y * (p c - y))) / (p (c + 1) - p c) := by
        rw [hs, eq_div_iff hw.ne', sub_mul, div_mul_cancel₀ _ hw.ne']; ring
      rw [e, abs_div, abs_of_pos hw, div_le_iff₀ hw]
      have t2 := (abs_sub _ _).trans (add_le_add t1 t0)
      have t3 : (p (c + 1) - y) ^ 2 + (p c - y) ^ 2 ≤ (p (c + 1) - p c) ^ 2 := by
        have := mul_nonneg (sub_nonneg.2 hy.1) (sub_nonneg.2 hy.2)
        nlinarith
      have t4 : M / 2 * (p (c + 1) - p c) ^ 2 ≤ M / 2 * h * (p (c + 1) - p c) := by
        have := mul_le_mul_of_nonneg_right (hh c hc) hw.le
        have := mul_le_mul_of_nonneg_left this (show 0 ≤ M / 2 by positivity)
        linarith
      have t5 := mul_le_mul_of_nonneg_left t3 (show 0 ≤ M / 2 by positivity)
      linarith
    have hder : ∀ y ∈ Icc (p c) (p (c + 1)), HasDerivWithinAt
        (fun y => linPiece p (fun i => φ (p i)) c y - φ y) (s - d1 y) (Icc (p c) (p (c + 1))) y := by
      intro y hy
      have e1 : HasDerivWithinAt (fun y => linPiece p (fun i => φ (p i)) c y) s
          (Icc (p c) (p (c + 1))) y := by
        unfold linPiece
        have := ((((hasDerivWithinAt_id y (Icc (p c) (p (c + 1)))).sub_const (p c)).div_const
          (p (c + 1) - p c)).mul_const (φ (p (c + 1)) - φ (p c))).const_add (φ (p c))
        refine this.congr_deriv ?_
        rw [hs]; ring
      exact e1.sub ((hdd y (hsub hy)).1.mono hsub)
    have := taylor1 hder hslope ⟨hx0, hxz.trans hz1⟩ ⟨hx0.trans hxz, hz1⟩ 1 ⟨zero_le_one, le_rfl⟩
    rwa [one_mul, add_sub_cancel, mul_one] at this

/-- Differences of the cubic interpolant reproduce differences of the function up to second order. -/
theorem cubicPiece_error_diff (hi : Incr n p) (hn : 4 ≤ n) (lin : Bool) {ρ : ℝ}
    (hρ : MeshRatio n p ρ) (hh : ∀ i, i + 1 < n → p (i + 1) - p i ≤ h)
    (hφ : ThirdDerivBounded φ (p 0) (p (n - 1)) M) {x z : ℝ} {c d : Nat} (hc : InCell n p x c)
    (hd : InCell n p z d) (hx : InRange n p x) (hz : InRange n p z) :
    |cubicPiece n p (fun i => φ (p i)) lin d z - cubicPiece n p (fun i => φ (p i)) lin c x -
      (φ z - φ x)| ≤ 37 / 6 * M * h ^ 2 * |z - x| := by
  have hnode : ∀ i, i < n → InRange n p (p i) := fun i h =>
    ⟨hi.le (by omega) h, hi.le (by omega) (by omega)⟩
  have hM : 0 ≤ M := by
    obtain ⟨_, _, _, h⟩ := hφ
    exact (abs_nonneg _).trans (h _ hx).2.2.2
  have hh0 : 0 ≤ h := (sub_pos.2 (hi c hc.1)).le.trans (hh c hc.1)
  have key := cells_glue hi (err := fun c x => cubicPiece n p (fun i => φ (p i)) lin c x - φ x)
    (L := 37 / 6 * M * h ^ 2) (by positivity) ?_ ?_ hc hd hx hz
  · rwa [sub_sub_sub_comm] at key
  · intro c hc
    have c0 : InCell n p (p c) c := ⟨hc, .inr le_rfl, .inr (hi c hc).le⟩
    have c1 : InCell n p (p (c + 1)) c := ⟨hc, .inr (hi c hc).le, .inr le_rfl⟩
    simp only [cubicPiece_node hi (fun i => φ (p i)) lin (by omega : c < n) c0,
      cubicPiece_node hi (fun i => φ (p i)) lin hc c1, sub_self, and_self]
  · intro c hc x z hx0 hxz hz1
    have hw : 0 < p (c + 1) - p c := sub_pos.2 (hi c hc)
    have hxr : InRange n p x := ⟨(hnode c (by omega)).1.trans hx0,
      (hxz.trans hz1).trans (hnode (c + 1) hc).2⟩
    have hzr : InRange n p z := ⟨hxr.1.trans hxz, hz1.trans (hnode (c + 1) hc).2⟩
    have hxc : InCell n p x c := ⟨hc, .inr hx0, .inr (hxz.trans hz1)⟩
    have hzc : InCell n p z c := ⟨hc, .inr (hx0.trans hxz), .inr hz1⟩
    obtain ⟨d1, d2, d3, hdd⟩ := hφ
    -- the remainder of the Taylor polynomial at `x`
    set Q : ℝ → ℝ := fun y => φ x + d1 x * (y - x) + d2 x / 2 * (y - x) ^ 2 with hQ
    set r : ℝ → ℝ := fun y => φ y - Q y with hr
    have hquad : ∀ y, InRange n p y → cubicPiece n p (fun i => Q (p i)) lin c y = Q y := fun y hy =>
      cubicPiece_quadratic hi hn hc lin (fun _ => hy)
        ⟨φ x - d1 x * x + d2 x / 2 * x ^ 2, d1 x - d2 x * x, d2 x / 2, fun z => by rw [hQ]; ring⟩
    have hrder : ∀ y ∈ Icc (p 0) (p (n - 1)), HasDerivWithinAt r (d1 y - d1 x - d2 x * (y - x))
        (Icc (p 0) (p (n - 1))) y := by
      intro y hy
      have e1 := (hdd y hy).1
      have e2 := ((hasDerivWithinAt_id y (Icc (p 0) (p (n - 1)))).sub_const x).const_mul (d1 x)
      have e3 := (((hasDerivWithinAt_id y (Icc (p 0) (p (n - 1)))).sub_const x).pow 2).const_mul
        (d2 x / 2)
      refine (e1.sub ((e2.const_add (φ x)).add e3)).congr_deriv ?_
      simp only [id]
      push_cast
      ring
    have hrle : ∀ y ∈ Icc (p 0) (p (n - 1)), |d1 y - d1 x - d2 x * (y - x)| ≤ M / 2 * (y - x) ^ 2 := by
      intro y hy
      have := taylor2 (fun z hz => (hdd z hz).2.1) (fun z hz => (hdd z hz).2.2.1)
        (fun z hz => (hdd z hz).2.2.2) hxr hy 1 ⟨zero_le_one, le_rfl⟩
      rw [one_mul, add_sub_cancel, mul_one, one_pow, mul_one, sq_abs] at this
      linarith
    -- its slopes near the cell
    have hslope : ∀ i, i + 1 < n → c ≤ i + 1 → i ≤ c + 1 →
        |r (p (i + 1)) - r (p i)| ≤ 2 * M * h ^ 2 * (p (i + 1) - p i) := by
      intro i hin h1 h2
      have hsub : Icc (p i) (p (i + 1)) ⊆ Icc (p 0) (p (n - 1)) :=
        Icc_subset_Icc (hnode i (by omega)).1 (hnode (i + 1) hin).2
      have lower : p c - h ≤ p i := by
        rcases Nat.lt_or_ge i c with h3 | h3
        · obtain rfl : c = i + 1 := by omega
          have := hh i hin
          linarith
        · have := hi.le h3 (by omega)
          linarith
      have upper : p (i + 1) ≤ p (c + 1) + h := by
        rcases Nat.lt_or_ge c i with h3 | h3
        · obtain rfl : i = c + 1 := by omega
          have := hh (c + 1) hin
          linarith
        · have := hi.le (show i + 1 ≤ c + 1 by omega) hc
          linarith
      have hcw := hh c hc
      have := taylor1 (M := 2 * M * h ^ 2) (fun y hy => (hrder y (hsub hy)).mono hsub)
        (fun y hy => by
          refine (hrle y (hsub hy)).trans ?_
          have : (y - x) ^ 2 ≤ (2 * h) ^ 2 := by
            refine sq_le_sq' ?_ ?_
            · have := hy.1; linarith [hxz.trans hz1]
            · have := hy.2; linarith
          have := mul_le_mul_of_nonneg_left this (show 0 ≤ M / 2 by positivity)
          linarith) (left_mem_Icc.2 (hi i hin).le) (right_mem_Icc.2 (hi i hin).le) 1
        ⟨zero_le_one, le_rfl⟩
      rw [one_mul, add_sub_cancel, mul_one, abs_of_pos (sub_pos.2 (hi i hin))] at this
      exact this
    -- only the footprint counts
    set f : Nat → ℝ := fun i => r (p i) with hf
    set f' : Nat → ℝ := fun i => r (p (max (c - 1) (min i (c + 2)))) with hf'
    have hcong : ∀ y, InCell n p y c → InRange n p y →
        cubicPiece n p f lin c y = cubicPiece n p f' lin c y := by
      intro y hyc hy
      have := cubicPiece_lip hi hn lin hyc hy hρ (f := f) (f' := f') (ε := 0) (fun j hj => by
        have : max (c - 1) (min j (c + 2)) = j := by omega
        simp only [hf, hf', this, sub_self, abs_zero, le_refl])
      rw [mul_zero] at this
      exact sub_eq_zero.1 (abs_eq_zero.1 (le_antisymm this (abs_nonneg _)))
    have hfS : ∀ i, i + 1 < n → |f' (i + 1) - f' i| ≤ 2 * M * h ^ 2 * (p (i + 1) - p i) := by
      intro i hin
      by_cases hin' : c ≤ i + 1 ∧ i ≤ c + 1
      · have a1 : max (c - 1) (min i (c + 2)) = i := by omega
        have a2 : max (c - 1) (min (i + 1) (c + 2)) = i + 1 := by omega
        simp only [hf', a1, a2]
        exact hslope i hin hin'.1 hin'.2
      · have a1 : max (c - 1) (min i (c + 2)) = max (c - 1) (min (i + 1) (c + 2)) := by omega
        simp only [hf', a1, sub_self, abs_zero]
        have := sub_pos.2 (hi i hin)
        positivity
    have near : ∀ {y}, InRange n p y → NearRange n p 0 y := fun hy => by
      unfold NearRange; simpa [InRange] using hy
    have hlip := cubicPiece_lip_cell hi hn lin le_rfl hfS hxc hzc (near hxr) (near hzr) hxz
    rw [← hcong z hzc hzr, ← hcong x hxc hxr] at hlip
    have hfe : ∀ y, InRange n p y → cubicPiece n p f lin c y =
        cubicPiece n p (fun i => φ (p i)) lin c y - Q y := by
      intro y hy
      rw [hf, hr, cubicPiece_sub hn lin hc, hquad y hy]
    rw [hfe z hzr, hfe x hxr] at hlip
    have hrz : |r z - r x| ≤ M / 6 * h ^ 2 * |z - x| := by
      have := taylor3 (fun z hz => (hdd z hz).1) (fun z hz => (hdd z hz).2.1)
        (fun z hz => (hdd z hz).2.2.1) (fun z hz => (hdd z hz).2.2.2) hxr hzr 1
        ⟨zero_le_one, le_rfl⟩
      rw [one_mul, add_sub_cancel, mul_one, one_pow, mul_one, one_pow, mul_one] at this
      have e : r z - r x = φ z - φ x - d1 x * (z - x) - d2 x * (z - x) ^ 2 / 2 := by
        simp only [hr, hQ]; ring
      rw [e]
      refine this.trans ?_
      have h1 : |z - x| ^ 2 ≤ h ^ 2 := by
        refine pow_le_pow_left₀ (abs_nonneg _) ?_ 2
        rw [abs_of_nonneg (by linarith)]
        have := hh c hc
        linarith
      have := mul_le_mul_of_nonneg_left h1 (show 0 ≤ M / 6 * |z - x| by positivity)
      linarith
    have e : cubicPiece n p (fun i => φ (p i)) lin c z - φ z -
        (cubicPiece n p (fun i => φ (p i)) lin c x - φ x) =
        (cubicPiece n p (fun i => φ (p i)) lin c z - Q z -
          (cubicPiece n p (fun i => φ (p i)) lin c x - Q x)) - (r z - r x) := by
      simp only [hr]; ring
    rw [e]
    refine (abs_sub _ _).trans ((add_le_add hlip hrz).trans (le_of_eq (by ring)))

end

end Interpn
