import Verif.Lemmas.TensorAlg
import Verif.Lemmas.Gradient
import Verif.Lemmas.Pieces
import Verif.Lemmas.Accuracy
import Mathlib.Tactic.Linarith
import Mathlib.Tactic.Ring

/-! Replacing the rules of the axes by others, where the two rules of an axis differ by at most a
multiple of some linear functionals (such as differences) of the data. Used for C135. -/

set_option autoImplicit false
set_option linter.unusedSectionVars false

namespace Interpn

section
variable {K : Type} [Field K] [LinearOrder K] [IsStrictOrderedRing K] [FloorRing K]

theorem axisByAxis_commute {N : Nat} {n : Fin N → Nat} (op : Fin N → (Nat → K) → K)
    (h : ∀ k, LinearOn (n k) (op k)) {m : Nat} {L : (Nat → K) → K} (hL : LinearOn m L)
    (g : Nat → (Fin N → Nat) → K) :
    L (fun i => axisByAxis op (g i)) = axisByAxis op fun loc => L fun i => g i loc := by
  rw [hL.eq_sum, axisByAxis_linear op h]
  simp only [fun i => axisByAxis_linear op h (g i), fun loc => hL.eq_sum fun i => g i loc,
    Finset.mul_sum]
  rw [Finset.sum_comm]
  refine Finset.sum_congr rfl fun loc _ => Finset.sum_congr rfl fun i _ => ?_
  ring

theorem axisByAxis_size {Λ : K} (hΛ : 0 ≤ Λ) : ∀ {N : Nat} (n : Fin N → Nat)
    (op : Fin N → (Nat → K) → K) (g : (Fin N → Nat) → K) (ε : K)
    (_ : ∀ k f ε, (∀ i < n k, |f i| ≤ ε) → |op k f| ≤ Λ * ε)
    (_ : ∀ loc : Fin N → Nat, (∀ k, loc k < n k) → |g loc| ≤ ε), |axisByAxis op g| ≤ Λ ^ N * ε
  | 0, _, _, g, ε, _, hg => by
    rw [axisByAxis, pow_zero, one_mul]
    exact hg _ fun k => k.elim0
  | N + 1, n, op, g, ε, h1, hg => by
    rw [axisByAxis, pow_succ', mul_assoc]
    refine h1 (Fin.last N) _ _ fun i hi => ?_
    refine axisByAxis_size hΛ (fun k : Fin N => n k.castSucc) (fun k => op k.castSucc) _ ε
      (fun k => h1 k.castSucc) fun loc hl => hg _ fun k => ?_
    refine Fin.lastCases ?_ (fun k => ?_) k
    · rw [Fin.snoc_last]; exact hi
    · rw [Fin.snoc_castSucc]; exact hl k

/-- Replacing the rule of axis `j`. -/
theorem axisByAxis_replace {Λ C : K} (hΛ : 0 ≤ Λ) :
    ∀ {N : Nat} (n : Fin N → Nat) (op op' : Fin N → (Nat → K) → K) (j : Fin N) {I : Type}
    (L : I → (Nat → K) → K) (g : (Fin N → Nat) → K) (B : K) (_ : ∀ k, 0 < n k)
    (_ : ∀ k, LinearOn (n k) (op k)) (_ : ∀ i, LinearOn (n j) (L i))
    (_ : ∀ k f ε, (∀ i < n k, |f i| ≤ ε) → |op k f| ≤ Λ * ε)
    (_ : ∀ k, k ≠ j → op' k = op k)
    (_ : ∀ f B, (∀ i, |L i f| ≤ B) → |op' j f - op j f| ≤ C * B)
    (_ : ∀ loc : Fin N → Nat, (∀ k, loc k < n k) → ∀ i,
      |L i fun m => g (Function.update loc j m)| ≤ B),
    |axisByAxis op' g - axisByAxis op g| ≤ C * (Λ ^ (N - 1) * B)
  | 0, _, _, _, j, _, _, _, _, _, _, _, _, _, _, _ => j.elim0
  | N + 1, n, op, op', j, I, L, g, B, hn0, hop, hL, h1, hsame, hj, hg => by
    rw [axisByAxis, axisByAxis, Nat.add_sub_cancel]
    refine Fin.lastCases (motive := fun j => (∀ i, LinearOn (n j) (L i)) →
      (∀ k, k ≠ j → op' k = op k) →
      (∀ f B, (∀ i, |L i f| ≤ B) → |op' j f - op j f| ≤ C * B) →
      (∀ loc : Fin (N + 1) → Nat, (∀ k, loc k < n k) → ∀ i,
        |L i fun m => g (Function.update loc j m)| ≤ B) → _)
      (fun hL hsame hj hg => ?_) (fun j hL hsame hj hg => ?_) j hL hsame hj hg
    · have e : (fun k : Fin N => op' k.castSucc) = fun k => op k.castSucc :=
        funext fun k => hsame _ (Fin.castSucc_lt_last k).ne
      rw [e]
      refine hj _ _ fun i => ?_
      rw [axisByAxis_commute (fun k : Fin N => op k.castSucc) (fun k => hop k.castSucc) (hL i)
        fun m loc => g (Fin.snoc (α := fun _ => Nat) loc m)]
      refine axisByAxis_size hΛ (fun k => n k.castSucc) _ _ _ (fun k => h1 k.castSucc)
        fun loc hl => ?_
      have := hg (Fin.snoc (α := fun _ => Nat) loc 0) (fun k => by
        refine Fin.lastCases ?_ (fun k => ?_) k
        · rw [Fin.snoc_last]; exact hn0 _
        · rw [Fin.snoc_castSucc]; exact hl k) i
      simpa only [Fin.update_snoc_last] using this
    · rw [hsame (Fin.last N) (Fin.castSucc_lt_last j).ne']
      obtain ⟨M, rfl⟩ : ∃ M, N = M + 1 := ⟨N - 1, by have := j.isLt; omega⟩
      rw [← (hop (Fin.last (M + 1))).sub]
      refine (h1 (Fin.last (M + 1)) _ (C * (Λ ^ M * B)) fun i hi => ?_).trans (le_of_eq (by ring))
      refine axisByAxis_replace hΛ (fun k : Fin (M + 1) => n k.castSucc) (fun k => op k.castSucc)
        (fun k => op' k.castSucc) j L (fun loc => g (Fin.snoc (α := fun _ => Nat) loc i)) B
        (fun k => hn0 _) (fun k => hop k.castSucc) hL (fun k => h1 k.castSucc)
        (fun k hk => hsame _ fun h => hk (Fin.castSucc_injective _ h)) hj fun loc hl l => ?_
      have := hg (Fin.snoc (α := fun _ => Nat) loc i) (fun k => by
        refine Fin.lastCases ?_ (fun k => ?_) k
        · rw [Fin.snoc_last]; exact hi
        · rw [Fin.snoc_castSucc]; exact hl k) l
      simpa only [Fin.snoc_update] using this

/-- Replacing the rules of all axes. -/
theorem axisByAxis_replace_all {N : Nat} {Λ : K} (hΛ : 0 ≤ Λ) {n : Fin N → Nat} (hn : ∀ k, 0 < n k)
    (op op' : Fin N → (Nat → K) → K) {I : Fin N → Type} (L : ∀ k, I k → (Nat → K) → K)
    (g : (Fin N → Nat) → K) (C B : Fin N → K) (hop : ∀ k, LinearOn (n k) (op k))
    (hop' : ∀ k, LinearOn (n k) (op' k)) (hL : ∀ k i, LinearOn (n k) (L k i))
    (h1 : ∀ k f ε, (∀ i < n k, |f i| ≤ ε) → |op k f| ≤ Λ * ε ∧ |op' k f| ≤ Λ * ε)
    (hC : ∀ k f B, (∀ i, |L k i f| ≤ B) → |op' k f - op k f| ≤ C k * B)
    (hg : ∀ k, ∀ loc : Fin N → Nat, (∀ k, loc k < n k) → ∀ i,
      |L k i fun m => g (Function.update loc k m)| ≤ B k) :
    |axisByAxis op' g - axisByAxis op g| ≤ Λ ^ (N - 1) * ∑ k, C k * B k := by
  have key : ∀ s : Finset (Fin N), |axisByAxis (s.piecewise op' op) g - axisByAxis op g| ≤
      ∑ k ∈ s, C k * (Λ ^ (N - 1) * B k) := by
    intro s
    induction s using Finset.induction_on with
    | empty => simp
    | insert k s hk ih =>
      rw [Finset.piecewise_insert, Finset.sum_insert hk]
      have hpick : ∀ (P : ((Nat → K) → K) → Prop) (j : Fin N), P (op j) → P (op' j) →
          P (s.piecewise op' op j) := by
        intro P j h h'
        by_cases hj : j ∈ s
        · rwa [Finset.piecewise_eq_of_mem _ _ _ hj]
        · rwa [Finset.piecewise_eq_of_notMem _ _ _ hj]
      have := axisByAxis_replace (C := C k) hΛ n (s.piecewise op' op)
        (Function.update (s.piecewise op' op) k (op' k)) k (L k) g (B k) hn
        (fun j => hpick (LinearOn (n j)) j (hop j) (hop' j)) (hL k)
        (fun j f ε h => hpick (fun o => |o f| ≤ Λ * ε) j (h1 j f ε h).1 (h1 j f ε h).2)
        (fun j hj => Function.update_of_ne hj _ _) (fun f B h => by
          rw [Function.update_self, Finset.piecewise_eq_of_notMem _ _ _ hk]
          exact hC k f B h) (hg k)
      have h2 := abs_add_le (axisByAxis (Function.update (s.piecewise op' op) k (op' k)) g -
        axisByAxis (s.piecewise op' op) g) (axisByAxis (s.piecewise op' op) g - axisByAxis op g)
      rw [sub_add_sub_cancel] at h2
      linarith
  have := key Finset.univ
  rw [Finset.piecewise_univ] at this
  refine this.trans (le_of_eq ?_)
  rw [Finset.mul_sum]
  exact Finset.sum_congr rfl fun k _ => by ring

/-! ### The rules of one axis -/

section
variable {n : Nat} {p : Nat → K}

/-- The increment of the data over cell `i`. -/
def increment (i : Nat) (f : Nat → K) : K := f (i + 1) - f i

/-- The change of the slope of the data at node `i + 1`. -/
def slopeChange (p : Nat → K) (i : Nat) (f : Nat → K) : K :=
  (f (i + 2) - f (i + 1)) / (p (i + 2) - p (i + 1)) - (f (i + 1) - f i) / (p (i + 1) - p i)

theorem increment_linear {i : Nat} (h : i + 1 < n) : LinearOn n (increment (K := K) i) where
  congr f f' hf := by simp only [increment, hf i (by omega), hf (i + 1) h]
  add f f' := by simp only [increment]; ring
  smul a f := by simp only [increment]; ring

theorem slopeChange_linear {i : Nat} (h : i + 2 < n) : LinearOn n (slopeChange p i) where
  congr f f' hf := by
    simp only [slopeChange, hf i (by omega), hf (i + 1) (by omega), hf (i + 2) h]
  add f f' := by simp only [slopeChange]; ring
  smul a f := by simp only [slopeChange]; ring

/-- The value at a nearest node differs from linear interpolation by at most half the increment over
the cell. -/
theorem nearest_linPiece (hi : Incr n p) {x : K} {c i : Nat} (hc : InCell n p x c)
    (hx : InRange n p x) (hn : IsNearest n p x i) {f : Nat → K} {B : K}
    (hB : ∀ i : {i : Nat // i + 1 < n}, |increment i.1 f| ≤ B) :
    |f i - linPiece p f c x| ≤ 1 / 2 * B := by
  obtain ⟨h0, h1⟩ := inRange_of_inCell hc hx
  have hb := hB ⟨c, hc.1⟩
  have hw : 0 < p (c + 1) - p c := sub_pos.2 (hi c hc.1)
  have a0 : |x - p c| = x - p c := abs_of_nonneg (by linarith)
  have a1 : |x - p (c + 1)| = p (c + 1) - x := by rw [abs_of_nonpos (by linarith)]; ring
  have n0 := hn.2.1 c (by have := hc.1; omega)
  have n1 := hn.2.1 (c + 1) hc.1
  rw [a0] at n0
  rw [a1] at n1
  obtain ⟨t, ht⟩ : ∃ t, t = (x - p c) / (p (c + 1) - p c) := ⟨_, rfl⟩
  have hl : linPiece p f c x = f c + t * increment c f := by rw [ht]; rfl
  have hx' : x - p c = t * (p (c + 1) - p c) := by rw [ht, div_mul_cancel₀ _ hw.ne']
  have t0 : 0 ≤ t := by rw [ht]; exact div_nonneg (by linarith) hw.le
  have t1 : t ≤ 1 := by rw [ht, div_le_one hw]; linarith
  have hb0 : 0 ≤ B := (abs_nonneg _).trans hb
  have hcase : i = c ∨ i = c + 1 := by
    rcases Nat.lt_trichotomy i c with h | h | h
    · have := hi.lt h (by have := hc.1; omega)
      rw [abs_of_nonneg (by linarith)] at n0
      linarith
    · exact .inl h
    · rcases Nat.lt_or_ge (c + 1) i with h' | h'
      · have := hi.lt h' hn.1
        rw [abs_of_nonpos (by linarith)] at n1
        linarith
      · exact .inr (by omega)
  rcases hcase with rfl | rfl
  · rw [a0] at n1
    have ht2 : t ≤ 1 / 2 := by
      rw [← mul_le_mul_iff_left₀ hw, ← hx']; linarith
    rw [hl, show f i - (f i + t * increment i f) = -(t * increment i f) by ring, abs_neg, abs_mul,
      abs_of_nonneg t0]
    exact mul_le_mul ht2 hb (abs_nonneg _) (by norm_num)
  · rw [a1] at n0
    have ht2 : 1 - t ≤ 1 / 2 := by
      rw [← mul_le_mul_iff_left₀ hw, sub_mul, ← hx']; linarith
    rw [hl, show f (c + 1) - (f c + t * increment c f) = (1 - t) * increment c f by
      unfold increment; ring, abs_mul, abs_of_nonneg (by linarith)]
    exact mul_le_mul ht2 hb (abs_nonneg _) (by norm_num)

theorem weight_mul_le {h h' ρ : K} (hh : 0 < h) (hh' : 0 < h') (hρ : h ≤ ρ * h') :
    h / (h + h') ≤ ρ / (1 + ρ) := by
  have : 0 < ρ := by
    by_contra hn
    have := mul_nonpos_of_nonpos_of_nonneg (not_lt.1 hn) hh'.le
    linarith
  rw [div_le_div_iff₀ (by linarith) (by linarith)]
  nlinarith

/-- The slope at a node differs from the chords next to it by at most `ρ/(1 + ρ)` times the change of
slope. -/
theorem nodeSlope_chord (hi : Incr n p) (hn : 4 ≤ n) {ρ : K} (hρ : MeshRatio n p ρ) {f : Nat → K}
    {B : K} (hB : ∀ i : {i : Nat // i + 2 < n}, |slopeChange p i.1 f| ≤ B) {c : Nat}
    (hc : c + 1 < n) :
    |nodeSlope n p f c - (f (c + 1) - f c) / (p (c + 1) - p c)| ≤ ρ / (1 + ρ) * B ∧
      |nodeSlope n p f (c + 1) - (f (c + 1) - f c) / (p (c + 1) - p c)| ≤ ρ / (1 + ρ) * B := by
  have mid : ∀ i, i + 2 < n →
      |nodeSlope n p f (i + 1) - (f (i + 1) - f i) / (p (i + 1) - p i)| ≤ ρ / (1 + ρ) * B ∧
      |nodeSlope n p f (i + 1) - (f (i + 2) - f (i + 1)) / (p (i + 2) - p (i + 1))| ≤
        ρ / (1 + ρ) * B := by
    intro i h
    have w1 : 0 < p (i + 1) - p i := sub_pos.2 (hi i (by omega))
    have w2 : 0 < p (i + 2) - p (i + 1) := sub_pos.2 (hi (i + 1) h)
    have hb := hB ⟨i, h⟩
    have r1 := weight_mul_le w1 w2 (hρ i h).1
    have r2 := weight_mul_le w2 w1 (hρ i h).2
    have e1 : nodeSlope n p f (i + 1) - (f (i + 1) - f i) / (p (i + 1) - p i) =
        (p (i + 1) - p i) / ((p (i + 1) - p i) + (p (i + 2) - p (i + 1))) * slopeChange p i f := by
      rw [nodeSlope_inner h, show p (i + 2) - p i = (p (i + 1) - p i) + (p (i + 2) - p (i + 1)) by
        ring, slopeChange]
      generalize p (i + 1) - p i = w at *
      generalize p (i + 2) - p (i + 1) = w' at *
      have : w + w' ≠ 0 := by linarith
      field_simp
      ring
    have e2 : nodeSlope n p f (i + 1) - (f (i + 2) - f (i + 1)) / (p (i + 2) - p (i + 1)) =
        -((p (i + 2) - p (i + 1)) / ((p (i + 2) - p (i + 1)) + (p (i + 1) - p i)) *
          slopeChange p i f) := by
      rw [nodeSlope_inner h, show p (i + 2) - p i = (p (i + 1) - p i) + (p (i + 2) - p (i + 1)) by
        ring, slopeChange]
      generalize p (i + 1) - p i = w at *
      generalize p (i + 2) - p (i + 1) = w' at *
      have : w + w' ≠ 0 := by linarith
      have : w' + w ≠ 0 := by linarith
      field_simp
      ring
    have q : ∀ {a : K}, 0 ≤ a → a ≤ ρ / (1 + ρ) → |a * slopeChange p i f| ≤ ρ / (1 + ρ) * B := by
      intro a h0 h1
      rw [abs_mul, abs_of_nonneg h0]
      exact mul_le_mul h1 hb (abs_nonneg _) (h0.trans h1)
    rw [e1, e2, abs_neg]
    exact ⟨q (by positivity) r1, q (by positivity) r2⟩
  have first : ∀ {s m : K}, |m - s| ≤ ρ / (1 + ρ) * B → |2 * s - m - s| ≤ ρ / (1 + ρ) * B := by
    intro s m h
    rwa [show 2 * s - m - s = -(m - s) by ring, abs_neg]
  constructor
  · rcases Nat.eq_zero_or_pos c with rfl | h0
    · rw [nodeSlope_first (by omega)]
      exact first (mid 0 (by omega)).1
    · obtain ⟨i, rfl⟩ : ∃ i, c = i + 1 := ⟨c - 1, by omega⟩
      exact (mid i hc).2
  · rcases Nat.lt_or_ge (c + 2) n with h | h
    · exact (mid c h).1
    · obtain ⟨i, rfl⟩ : ∃ i, c = i + 1 := ⟨c - 1, by omega⟩
      rw [nodeSlope_last (by omega) (by omega)]
      exact first (mid i hc).2

/-- Cubic and linear interpolation differ by at most `ρ/(4 (1 + ρ))` times the width of the cell
times the change of slope. -/
theorem cubicPiece_linPiece (hi : Incr n p) (hn : 4 ≤ n) (lin : Bool) {x : K} {c : Nat}
    (hc : InCell n p x c) (hx : InRange n p x) {ρ : K} (hρ : MeshRatio n p ρ) {f : Nat → K} {B : K}
    (hB : ∀ i : {i : Nat // i + 2 < n}, |slopeChange p i.1 f| ≤ B) :
    |cubicPiece n p f lin c x - linPiece p f c x| ≤
      (p (c + 1) - p c) * (ρ / (4 * (1 + ρ))) * B := by
  have hw : 0 < p (c + 1) - p c := sub_pos.2 (hi c hc.1)
  obtain ⟨t0, t1⟩ := weight_mem hi hc hx
  obtain ⟨b0, b1⟩ := nodeSlope_chord hi hn hρ hB hc.1
  have hρ0 := hρ.pos hi hn
  have e : cubicPiece n p f lin c x = hermiteCubic (p c) (p (c + 1)) (f c) (f (c + 1))
      (nodeSlope n p f c) (nodeSlope n p f (c + 1)) x := by
    unfold cubicPiece
    rw [if_neg fun h => not_lt.2 hx.1 h.2, if_neg fun h => not_lt.2 hx.2 h.2]
  have hs : f (c + 1) = f c + (f (c + 1) - f c) / (p (c + 1) - p c) * (p (c + 1) - p c) := by
    rw [div_mul_cancel₀ _ hw.ne']; ring
  rw [e]
  unfold hermiteCubic linPiece
  simp only
  generalize (f (c + 1) - f c) / (p (c + 1) - p c) = s at *
  generalize (x - p c) / (p (c + 1) - p c) = t at *
  generalize p (c + 1) - p c = w at *
  generalize nodeSlope n p f c = m0 at *
  generalize nodeSlope n p f (c + 1) = m1 at *
  rw [hs, show (1 + 2 * t) * (1 - t) ^ 2 * f c + t * (1 - t) ^ 2 * w * m0 +
      t ^ 2 * (3 - 2 * t) * (f c + s * w) + t ^ 2 * (t - 1) * w * m1 -
      (f c + t * (f c + s * w - f c)) = w * (t * (1 - t)) * ((1 - t) * (m0 - s) - t * (m1 - s)) by
    ring, abs_mul, abs_of_nonneg (mul_nonneg hw.le (mul_nonneg t0 (sub_nonneg.2 t1)))]
  have h1 : |(1 - t) * (m0 - s) - t * (m1 - s)| ≤ ρ / (1 + ρ) * B := by
    refine (abs_sub _ _).trans ?_
    rw [abs_mul, abs_mul, abs_of_nonneg (sub_nonneg.2 t1), abs_of_nonneg t0]
    nlinarith [mul_le_mul_of_nonneg_left b0 (sub_nonneg.2 t1), mul_le_mul_of_nonneg_left b1 t0]
  have h2 : t * (1 - t) ≤ 1 / 4 := by nlinarith [sq_nonneg (2 * t - 1)]
  have h3 : 0 ≤ ρ / (1 + ρ) * B := (abs_nonneg _).trans h1
  calc w * (t * (1 - t)) * |(1 - t) * (m0 - s) - t * (m1 - s)|
      ≤ w * (1 / 4) * (ρ / (1 + ρ) * B) :=
        mul_le_mul (mul_le_mul_of_nonneg_left h2 hw.le) h1 (abs_nonneg _) (by positivity)
    _ = w * (ρ / (4 * (1 + ρ))) * B := by field_simp

end

end

end Interpn
