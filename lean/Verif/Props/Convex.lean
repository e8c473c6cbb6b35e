import Verif.Props.Shape
import Verif.Props.IeeeAccuracy
import Mathlib.Analysis.Convex.Function
import Mathlib.Analysis.Convex.Slope

/-! C106: convex and concave data. Multilinear interpolation in exact arithmetic, both grid kinds
(`Axes`) and both implementations (`Evaluator`), and in IEEE f64 and f32. -/

set_option autoImplicit false
set_option linter.unusedSectionVars false
set_option exponentiation.threshold 1100

namespace Interpn

section
variable {K : Type} [Field K] [LinearOrder K] [IsStrictOrderedRing K] [FloorRing K] {N : Nat}

/-! ### One axis -/

/-- Slope of the data between nodes `i` and `i + 1`. -/
def chordSlope (p f : Nat → K) (i : Nat) : K := (f (i + 1) - f i) / (p (i + 1) - p i)

theorem linPiece_chord (p f : Nat → K) (i : Nat) (x : K) :
    linPiece p f i x = f i + chordSlope p f i * (x - p i) := by
  unfold linPiece chordSlope; ring

/-- Difference of two neighbouring lines. -/
theorem linPiece_succ_sub {p f : Nat → K} {i : Nat} (h : p i < p (i + 1)) (x : K) :
    linPiece p f (i + 1) x - linPiece p f i x =
      (chordSlope p f (i + 1) - chordSlope p f i) * (x - p (i + 1)) := by
  have e : f (i + 1) = f i + chordSlope p f i * (p (i + 1) - p i) := by
    unfold chordSlope
    rw [div_mul_cancel₀ _ (sub_pos.2 h).ne']
    ring
  rw [linPiece_chord, linPiece_chord]
  linear_combination e

/-- Of the lines through neighbouring data points of convex data, the one of the cell is highest. -/
theorem linPiece_le_of_convex {n : Nat} {p f : Nat → K} {x : K} {c : Nat} (hi : Incr n p)
    (hf : ∀ i, i + 2 < n → chordSlope p f i ≤ chordSlope p f (i + 1)) (hc : InCell n p x c)
    (d : Nat) (hd : d + 1 < n) : linPiece p f d x ≤ linPiece p f c x := by
  have up : ∀ m, d + m ≤ c → linPiece p f d x ≤ linPiece p f (d + m) x := by
    intro m
    induction m with
    | zero => intro _; exact le_rfl
    | succ m ih =>
      intro hm
      refine (ih (by omega)).trans (sub_nonneg.1 ?_)
      rw [← Nat.add_assoc, linPiece_succ_sub (hi _ (by have := hc.1; omega))]
      have h1 : p c ≤ x := hc.2.1.resolve_left (by omega)
      have h2 := hi.le (show d + m + 1 ≤ c by omega) (by have := hc.1; omega)
      exact mul_nonneg (sub_nonneg.2 (hf _ (by have := hc.1; omega))) (sub_nonneg.2 (h2.trans h1))
  have down : ∀ m, c + m ≤ d → linPiece p f (c + m) x ≤ linPiece p f c x := by
    intro m
    induction m with
    | zero => intro _; exact le_rfl
    | succ m ih =>
      intro hm
      refine le_trans (sub_nonpos.1 ?_) (ih (by omega))
      rw [← Nat.add_assoc, linPiece_succ_sub (hi _ (by omega))]
      have h1 : x ≤ p (c + 1) := hc.2.2.resolve_left (by omega)
      have h2 := hi.le (show c + 1 ≤ c + m + 1 by omega) (by omega)
      exact mul_nonpos_of_nonneg_of_nonpos (sub_nonneg.2 (hf _ (by omega)))
        (sub_nonpos.2 (h1.trans h2))
  rcases Nat.le_total d c with h | h
  · have := up (c - d) (by omega)
    rwa [Nat.add_sub_cancel' h] at this
  · have := down (d - c) (by omega)
    rwa [Nat.add_sub_cancel' h] at this

theorem linPiece_combine (p f : Nat → K) (c : Nat) (a b u v : K) (h : a + b = 1) :
    linPiece p f c (a * u + b * v) = a * linPiece p f c u + b * linPiece p f c v := by
  rw [linPiece_chord, linPiece_chord, linPiece_chord]
  linear_combination -(f c - chordSlope p f c * p c) * h

/-- On one axis: convex data give a convex interpolant, extrapolation included. -/
theorem linPiece_convexOn {n : Nat} {p f : Nat → K} (hi : Incr n p)
    (hf : ∀ i, i + 2 < n → chordSlope p f i ≤ chordSlope p f (i + 1)) (d : K → Nat)
    (hd : ∀ z, InCell n p z (d z)) : ConvexOn K Set.univ fun z => linPiece p f (d z) z := by
  refine ⟨convex_univ, fun u _ v _ a b ha hb hab => ?_⟩
  simp only [smul_eq_mul]
  rw [linPiece_combine p f _ a b u v hab]
  exact add_le_add
    (mul_le_mul_of_nonneg_left (linPiece_le_of_convex hi hf (hd u) _ (hd _).1) ha)
    (mul_le_mul_of_nonneg_left (linPiece_le_of_convex hi hf (hd v) _ (hd _).1) hb)

theorem chordSlope_le_iff {p f : Nat → K} {i : Nat} (h1 : p i < p (i + 1))
    (h2 : p (i + 1) < p (i + 2)) : chordSlope p f i ≤ chordSlope p f (i + 1) ↔
      (p (i + 2) - p i) * f (i + 1) ≤
        (p (i + 2) - p (i + 1)) * f i + (p (i + 1) - p i) * f (i + 2) := by
  unfold chordSlope
  rw [div_le_div_iff₀ (sub_pos.2 h1) (sub_pos.2 h2)]
  constructor <;> intro h <;> linarith

/-! ### Taking one axis out -/

theorem LinearOn.comm {n m : Nat} {φ ψ : (Nat → K) → K} (hφ : LinearOn n φ) (hψ : LinearOn m ψ)
    (A : Nat → Nat → K) : φ (fun i => ψ fun j => A i j) = ψ fun j => φ fun i => A i j := by
  rw [hφ.eq_sum]
  simp only [hψ.eq_sum (fun j => A _ j), Finset.mul_sum]
  rw [hψ.eq_sum, Finset.sum_comm]
  refine Finset.sum_congr rfl fun j _ => ?_
  rw [hφ.eq_sum (fun i => A i j), Finset.mul_sum]
  exact Finset.sum_congr rfl fun i _ => by ring

/-- The rule of axis `j` can be applied last. -/
theorem axisByAxis_out : ∀ {N : Nat} (n : Fin N → Nat) (op : Fin N → (Nat → K) → K)
    (_ : ∀ k, LinearOn (n k) (op k)) (j : Fin N) (g : (Fin N → Nat) → K),
    axisByAxis op g = op j fun i =>
      axisByAxis (Function.update op j fun f => f 0) fun loc => g (Function.update loc j i)
  | N + 1, n, op, hl, j, g => by
    by_cases hj : j = Fin.last N
    · subst hj
      rw [axisByAxis]
      congr 1
      funext i
      rw [axisByAxis]
      simp only [Function.update_self, Fin.update_snoc_last]
      congr 1
      funext k
      rw [Function.update_of_ne (Fin.castSucc_lt_last k).ne]
    · obtain ⟨j', rfl⟩ := Fin.exists_castSucc_eq.2 hj
      have ih := fun g' => axisByAxis_out (fun k => n k.castSucc) (fun k => op k.castSucc)
        (fun k => hl k.castSucc) j' g'
      rw [axisByAxis]
      simp only [ih]
      rw [(hl (Fin.last N)).comm (hl j'.castSucc)]
      congr 1
      funext i
      rw [axisByAxis, Function.update_of_ne (Ne.symm hj)]
      congr 1
      funext i'
      have e : (fun k : Fin N => Function.update op j'.castSucc (fun f => f 0) k.castSucc) =
          Function.update (fun k : Fin N => op k.castSucc) j' fun f => f 0 := by
        funext k
        by_cases hk : k = j'
        · subst hk; simp
        · rw [Function.update_of_ne hk, Function.update_of_ne (by simpa using hk)]
      rw [e]
      congr 1
      funext loc
      rw [Fin.snoc_update (α := fun _ => Nat)]

/-- Convex data along axis `j`, linear rules with nonnegative weights on the other axes. -/
theorem axisByAxis_convex_axis {n : Fin N → Nat} {p : Fin N → Nat → K} (hi : ∀ k, Incr (n k) (p k))
    (j : Fin N) (g : (Fin N → Nat) → K)
    (hconv : ∀ loc : Fin N → Nat, (∀ k, loc k < n k) → ∀ i, i + 2 < n j →
      chordSlope (p j) (fun i => g (Function.update loc j i)) i ≤
        chordSlope (p j) (fun i => g (Function.update loc j i)) (i + 1))
    {x : Fin N → K} (hin : ∀ k, k ≠ j → InRange (n k) (p k) (x k)) {c : Fin N → Nat}
    (hc : ∀ k, InCell (n k) (p k) (x k) (c k)) (d : K → Nat) (hd : ∀ z, InCell (n j) (p j) z (d z)) :
    ConvexOn K Set.univ fun z => axisByAxis (fun k f => linPiece (p k) f
      (Function.update c j (d z) k) (Function.update x j z k)) g := by
  have hn : 2 ≤ n j := by have := (hc j).1; omega
  have hlin : ∀ z k, LinearOn (n k) fun f => linPiece (p k) f (Function.update c j (d z) k)
      (Function.update x j z k) := by
    intro z k
    by_cases hk : k = j
    · subst hk; simpa using linPiece_linear (hd z).1
    · simpa [hk] using linPiece_linear (p := p k) (x := x k) (hc k).1
  let op : Fin N → (Nat → K) → K := Function.update (fun k f => linPiece (p k) f (c k) (x k)) j
    fun f => f 0
  have hop : ∀ z, Function.update (fun k f => linPiece (p k) f (Function.update c j (d z) k)
      (Function.update x j z k)) j (fun f => f 0) = op := by
    intro z
    funext k f
    by_cases hk : k = j
    · subst hk; simp [op]
    · simp [op, hk]
  have hopl : ∀ k, LinearOn (n k) (op k) := by
    intro k
    by_cases hk : k = j
    · subst hk
      refine ⟨fun f f' h => ?_, fun f f' => ?_, fun a f => ?_⟩
      · simpa [op] using h 0 (by omega)
      · simp [op]
      · simp [op]
    · simpa [op, hk] using linPiece_linear (p := p k) (x := x k) (hc k).1
  have hmono : ∀ g g' : (Fin N → Nat) → K, (∀ loc, (∀ k, loc k < n k) → g loc ≤ g' loc) →
      axisByAxis op g ≤ axisByAxis op g' := by
    intro g g' h
    refine axisByAxis_rel (fun a b => a ≤ b) (fun k i => i < n k) _ _ _ _ (fun k f f' hf => ?_) h
    by_cases hk : k = j
    · subst hk; simpa [op] using hf 0 (by omega)
    · obtain ⟨ht0, ht1⟩ := weight_mem (hi k) (hc k) (hin k hk)
      have h1 := hf (c k) (by have := (hc k).1; omega)
      have h2 := hf (c k + 1) (hc k).1
      simp only [op, ne_eq, hk, not_false_eq_true, Function.update_of_ne]
      rw [linPiece_weights, linPiece_weights]
      have := mul_le_mul_of_nonneg_left h1 (sub_nonneg.2 ht1)
      have := mul_le_mul_of_nonneg_left h2 ht0
      linarith
  have key : ∀ z, axisByAxis (fun k f => linPiece (p k) f
      (Function.update c j (d z) k) (Function.update x j z k)) g =
      linPiece (p j) (fun i => axisByAxis op fun loc => g (Function.update loc j i)) (d z) z := by
    intro z
    rw [axisByAxis_out n _ (hlin z) j, hop z]
    simp
  simp only [key]
  refine linPiece_convexOn (hi j) (fun i hi2 => ?_) d hd
  have h1 := hi j i (by omega)
  have h2 := hi j (i + 1) (by omega)
  rw [chordSlope_le_iff h1 h2]
  have e0 := axisByAxis_lincomb op hopl (fun loc => g (Function.update loc j (i + 1)))
    (fun loc => g (Function.update loc j (i + 1))) (p j (i + 2) - p j i) 0
  have e1 := axisByAxis_lincomb op hopl (fun loc => g (Function.update loc j i))
    (fun loc => g (Function.update loc j (i + 2))) (p j (i + 2) - p j (i + 1)) (p j (i + 1) - p j i)
  rw [zero_mul, add_zero] at e0
  rw [← e0, ← e1]
  refine hmono _ _ fun loc hl => ?_
  have := (chordSlope_le_iff h1 h2).1 (hconv loc hl i hi2)
  linarith

/-- C106: if the values are convex along axis `j`, the interpolant is a convex function of coordinate
`j`, extrapolation along `j` included, at all points whose other coordinates are inside the grid. -/
theorem C106_convex (e : Evaluator) (he : e.Fits N) (fma : Bool) (G : Axes K N)
    (vals : List K) (hG : G.Valid 2 vals) (g : (Fin N → Nat) → K) (hg : Samples G.size vals g)
    (j : Fin N)
    (hconv : ∀ loc : Fin N → Nat, (∀ k, loc k < G.size k) → ∀ i, i + 2 < G.size j →
      (g (Function.update loc j (i + 1)) - g (Function.update loc j i)) /
          (G.node j (i + 1) - G.node j i) ≤
        (g (Function.update loc j (i + 2)) - g (Function.update loc j (i + 1))) /
          (G.node j (i + 2) - G.node j (i + 1)))
    (x : Fin N → K) (hin : ∀ k, k ≠ j → InRange (G.size k) (G.node k) (x k)) :
    ∃ φ : K → K, ConvexOn K Set.univ φ ∧ ∀ z, G.Representable (Function.update x j z) →
      multilinearAt e fma G vals (Function.update x j z) = .ok (φ z) := by
  obtain ⟨c, hc⟩ := hG.cells le_rfl x
  choose d hd using fun z => exists_inCell (p := G.node j) (hG.big j) z
  refine ⟨_, axisByAxis_convex_axis hG.incr j g hconv hin hc d hd, fun z hz => ?_⟩
  refine multilinearAt_eq e he fma G vals hG g hg _ hz _ fun k => ?_
  by_cases hk : k = j
  · subst hk; simpa using hd z
  · simpa [hk] using hc k

/-- C106: the same for concave values. -/
theorem C106_concave (e : Evaluator) (he : e.Fits N) (fma : Bool) (G : Axes K N)
    (vals : List K) (hG : G.Valid 2 vals) (g : (Fin N → Nat) → K) (hg : Samples G.size vals g)
    (j : Fin N)
    (hconc : ∀ loc : Fin N → Nat, (∀ k, loc k < G.size k) → ∀ i, i + 2 < G.size j →
      (g (Function.update loc j (i + 2)) - g (Function.update loc j (i + 1))) /
          (G.node j (i + 2) - G.node j (i + 1)) ≤
        (g (Function.update loc j (i + 1)) - g (Function.update loc j i)) /
          (G.node j (i + 1) - G.node j i))
    (x : Fin N → K) (hin : ∀ k, k ≠ j → InRange (G.size k) (G.node k) (x k)) :
    ∃ φ : K → K, ConcaveOn K Set.univ φ ∧ ∀ z, G.Representable (Function.update x j z) →
      multilinearAt e fma G vals (Function.update x j z) = .ok (φ z) := by
  obtain ⟨c, hc⟩ := hG.cells le_rfl x
  choose d hd using fun z => exists_inCell (p := G.node j) (hG.big j) z
  have h := axisByAxis_convex_axis hG.incr j (fun loc => -g loc) (fun loc hl i hi => by
    have := hconc loc hl i hi
    have e : ∀ i, chordSlope (G.node j) (fun i => -g (Function.update loc j i)) i =
        -((g (Function.update loc j (i + 1)) - g (Function.update loc j i)) /
          (G.node j (i + 1) - G.node j i)) := fun i => by unfold chordSlope; ring
    rw [e, e]
    exact neg_le_neg this) hin hc d hd
  refine ⟨fun z => -_, h.neg, fun z hz => ?_⟩
  have hc' : ∀ k, InCell (G.size k) (G.node k) (Function.update x j z k)
      (Function.update c j (d z) k) := by
    intro k
    by_cases hk : k = j
    · subst hk; simpa using hd z
    · simpa [hk] using hc k
  rw [multilinearAt_eq e he fma G vals hG g hg _ hz _ hc']
  congr 1
  have := axisByAxis_lincomb (n := G.size) (fun k f => linPiece (G.node k) f
    (Function.update c j (d z) k) (Function.update x j z k)) (fun k => linPiece_linear (hc' k).1)
    g g (-1) 0
  simp only [neg_mul, one_mul, zero_mul, add_zero] at this
  simp only [this, neg_neg]

/-! ### Interpolation of a convex function -/

/-- If every axis rule is monotone and overestimates `F`, so does the evaluation. -/
theorem axisByAxis_above : ∀ {N : Nat} (S : Fin N → Nat → Prop)
    (R : Fin N → K → Prop) (op : Fin N → (Nat → K) → K) (q : Fin N → Nat → K) (x : Fin N → K)
    (F : (Fin N → K) → K)
    (_ : ∀ k f f', (∀ i, S k i → f i ≤ f' i) → op k f ≤ op k f')
    (_ : ∀ k i, S k i → R k (q k i)) (_ : ∀ k, R k (x k))
    (_ : ∀ k y, (∀ j, R j (y j)) →
      F (Function.update y k (x k)) ≤ op k (fun i => F (Function.update y k (q k i)))),
    F x ≤ axisByAxis op (fun loc => F fun k => q k (loc k))
  | 0, S, R, op, q, x, F, _, _, _, _ => by
    simp only [axisByAxis]
    have : (fun k : Fin 0 => q k ((fun k : Fin 0 => k.elim0) k)) = x := funext fun k => k.elim0
    rw [this]
  | N + 1, S, R, op, q, x, F, hop, hq, hx, hE => by
    have hinner : ∀ i, S (Fin.last N) i →
        F (Function.update x (Fin.last N) (q (Fin.last N) i)) ≤
        axisByAxis (fun k : Fin N => op k.castSucc) (fun loc =>
            F fun k => q k ((Fin.snoc (α := fun _ => Nat) loc i : Fin (N + 1) → Nat) k)) := by
      intro i hi
      have key := axisByAxis_above (fun k : Fin N => S k.castSucc) (fun k => R k.castSucc)
        (fun k => op k.castSucc) (fun k => q k.castSucc) (fun k => x k.castSucc)
        (fun y => F (Fin.snoc (α := fun _ => K) y (q (Fin.last N) i)))
        (fun k f f' h => hop k.castSucc f f' h) (fun k => hq k.castSucc) (fun k => hx k.castSucc)
        (fun k y hy => by
          have := hE k.castSucc (Fin.snoc (α := fun _ => K) y (q (Fin.last N) i)) (fun j => by
            refine Fin.lastCases ?_ (fun j => ?_) j
            · simpa using hq _ _ hi
            · simpa using hy j)
          simpa only [Fin.snoc_update] using this)
      convert key using 1
      · congr 1
        funext k
        refine Fin.lastCases ?_ (fun j => ?_) k
        · simp
        · simp [Fin.snoc_castSucc, (Fin.castSucc_lt_last j).ne]
      · congr 1
        funext loc
        congr 1
        funext k
        refine Fin.lastCases ?_ (fun j => ?_) k <;> simp
    have hstep := hop (Fin.last N) _ _ hinner
    have hlast := hE (Fin.last N) x hx
    rw [Function.update_eq_self] at hlast
    rw [axisByAxis]
    exact hlast.trans hstep

theorem linPiece_monotone {n : Nat} {p : Nat → K} {x : K} {c : Nat} (hi : Incr n p)
    (hc : InCell n p x c) (hx : InRange n p x) {f f' : Nat → K} (hf : ∀ i < n, f i ≤ f' i) :
    linPiece p f c x ≤ linPiece p f' c x := by
  obtain ⟨ht0, ht1⟩ := weight_mem hi hc hx
  have h1 := hf c (by have := hc.1; omega)
  have h2 := hf (c + 1) hc.1
  rw [linPiece_weights, linPiece_weights]
  have := mul_le_mul_of_nonneg_left h1 (sub_nonneg.2 ht1)
  have := mul_le_mul_of_nonneg_left h2 ht0
  linarith

/-- C106: if the values are not below a function that is convex in each coordinate separately, then
inside the grid neither is the interpolant. In particular the interpolant of samples of such a
function does not underestimate it. -/
theorem C106_above (e : Evaluator) (he : e.Fits N) (fma : Bool) (G : Axes K N)
    (vals : List K) (hG : G.Valid 2 vals) (F : (Fin N → K) → K)
    (hF : ∀ k y, (∀ j, InRange (G.size j) (G.node j) (y j)) →
      ConvexOn K (Set.Icc (G.node k 0) (G.node k (G.size k - 1))) fun z => F (Function.update y k z))
    (g : (Fin N → Nat) → K) (hg : Samples G.size vals g)
    (hFg : ∀ loc : Fin N → Nat, (∀ k, loc k < G.size k) → F (fun k => G.node k (loc k)) ≤ g loc)
    (x : Fin N → K) (hx : G.Representable x) (hin : ∀ k, InRange (G.size k) (G.node k) (x k)) :
    ∃ y, multilinearAt e fma G vals x = .ok y ∧ F x ≤ y := by
  obtain ⟨c, hc⟩ := hG.cells le_rfl x
  refine ⟨_, multilinearAt_eq e he fma G vals hG _ hg x hx c hc, ?_⟩
  have hnode : ∀ k i, i < G.size k → InRange (G.size k) (G.node k) (G.node k i) := fun k i h =>
    ⟨(hG.incr k).le (by omega) h, (hG.incr k).le (by omega) (by omega)⟩
  have hm := axisByAxis_rel (· ≤ ·) (fun k i => i < G.size k)
    (fun k f => linPiece (G.node k) f (c k) (x k)) (fun k f => linPiece (G.node k) f (c k) (x k))
    (fun loc => F fun k => G.node k (loc k)) g
    (fun k f f' hf => linPiece_monotone (hG.incr k) (hc k) (hin k) hf) hFg
  refine le_trans ?_ hm
  refine axisByAxis_above (fun k i => i < G.size k) (fun k => InRange (G.size k) (G.node k))
    _ G.node x F (fun k f f' hf => linPiece_monotone (hG.incr k) (hc k) (hin k) hf) hnode hin ?_
  intro k y hy
  obtain ⟨ht0, ht1⟩ := weight_mem (hG.incr k) (hc k) (hin k)
  have hw := sub_pos.2 (hG.incr k (c k) (hc k).1)
  have h := (hF k y hy).2 (hnode k (c k) (by have := (hc k).1; omega)) (hnode k (c k + 1) (hc k).1)
    (sub_nonneg.2 ht1) ht0 (by ring)
  simp only [smul_eq_mul] at h
  rw [linPiece_weights]
  refine le_of_eq_of_le ?_ h
  congr 2
  field_simp
  ring

/-- C106: if the values are not above a function that is concave in each coordinate, then inside the
grid neither is the interpolant. -/
theorem C106_below (e : Evaluator) (he : e.Fits N) (fma : Bool) (G : Axes K N)
    (vals : List K) (hG : G.Valid 2 vals) (F : (Fin N → K) → K)
    (hF : ∀ k y, (∀ j, InRange (G.size j) (G.node j) (y j)) →
      ConcaveOn K (Set.Icc (G.node k 0) (G.node k (G.size k - 1))) fun z => F (Function.update y k z))
    (g : (Fin N → Nat) → K) (hg : Samples G.size vals g)
    (hFg : ∀ loc : Fin N → Nat, (∀ k, loc k < G.size k) → g loc ≤ F (fun k => G.node k (loc k)))
    (x : Fin N → K) (hx : G.Representable x) (hin : ∀ k, InRange (G.size k) (G.node k) (x k)) :
    ∃ y, multilinearAt e fma G vals x = .ok y ∧ y ≤ F x := by
  obtain ⟨c, hc⟩ := hG.cells le_rfl x
  refine ⟨_, multilinearAt_eq e he fma G vals hG _ hg x hx c hc, ?_⟩
  have hnode : ∀ k i, i < G.size k → InRange (G.size k) (G.node k) (G.node k i) := fun k i h =>
    ⟨(hG.incr k).le (by omega) h, (hG.incr k).le (by omega) (by omega)⟩
  have hm := axisByAxis_rel (· ≤ ·) (fun k i => i < G.size k)
    (fun k f => linPiece (G.node k) f (c k) (x k)) (fun k f => linPiece (G.node k) f (c k) (x k))
    g (fun loc => F fun k => G.node k (loc k))
    (fun k f f' hf => linPiece_monotone (hG.incr k) (hc k) (hin k) hf) hFg
  refine le_trans hm ?_
  have key := axisByAxis_above (fun k i => i < G.size k) (fun k => InRange (G.size k) (G.node k))
    (fun k f => linPiece (G.node k) f (c k) (x k)) G.node x (fun y => -F y)
    (fun k f f' hf => linPiece_monotone (hG.incr k) (hc k) (hin k) hf) hnode hin ?_
  · have := axisByAxis_lincomb (n := G.size) (fun k f => linPiece (G.node k) f (c k) (x k))
      (fun k => linPiece_linear (hc k).1) (fun loc => F fun k => G.node k (loc k))
      (fun loc => F fun k => G.node k (loc k)) (-1) 0
    simp only [neg_mul, one_mul, zero_mul, add_zero] at this
    rw [this] at key
    exact neg_le_neg_iff.1 key
  · intro k y hy
    obtain ⟨ht0, ht1⟩ := weight_mem (hG.incr k) (hc k) (hin k)
    have hw := sub_pos.2 (hG.incr k (c k) (hc k).1)
    have h := (hF k y hy).2 (hnode k (c k) (by have := (hc k).1; omega)) (hnode k (c k + 1) (hc k).1)
      (sub_nonneg.2 ht1) ht0 (by ring)
    simp only [smul_eq_mul] at h
    rw [linPiece_weights]
    have e1 : (1 - (x k - G.node k (c k)) / (G.node k (c k + 1) - G.node k (c k))) * G.node k (c k) +
        (x k - G.node k (c k)) / (G.node k (c k + 1) - G.node k (c k)) * G.node k (c k + 1) = x k := by
      field_simp
      ring
    rw [e1] at h
    linarith

/-- C106: beyond the end nodes of a one-dimensional grid, the interpolant of a convex function does
not overestimate it. -/
theorem C106_extrapolation (e : Evaluator) (he : e.Fits 1) (fma : Bool) (G : Axes K 1)
    (vals : List K) (hG : G.Valid 2 vals) (F : K → K) (hF : ConvexOn K Set.univ F)
    (hg : Samples G.size vals fun loc => F (G.node 0 (loc 0)))
    (x : Fin 1 → K) (hx : G.Representable x)
    (hout : x 0 ≤ G.node 0 0 ∨ G.node 0 (G.size 0 - 1) ≤ x 0) :
    ∃ y, multilinearAt e fma G vals x = .ok y ∧ y ≤ F (x 0) := by
  have hb := hG.big 0
  have hi := hG.incr 0
  have main : ∀ c, InCell (G.size 0) (G.node 0) (x 0) c →
      (x 0 ≤ G.node 0 c ∨ G.node 0 (c + 1) ≤ x 0) →
      linPiece (G.node 0) (fun i => F (G.node 0 i)) c (x 0) ≤ F (x 0) := by
    intro c hc ho
    have hw := hi c hc.1
    have hd := sub_pos.2 hw
    unfold linPiece
    rcases ho with ho | ho
    · rcases eq_or_lt_of_le ho with h | h
      · rw [h]; simp
      · have h1 := hF.secant_mono_aux1 (x := x 0) (y := G.node 0 c) (z := G.node 0 (c + 1)) trivial
          trivial h hw
        rw [div_mul_eq_mul_div, ← sub_nonneg]
        have : F (x 0) - (F (G.node 0 c) + (x 0 - G.node 0 c) *
            (F (G.node 0 (c + 1)) - F (G.node 0 c)) / (G.node 0 (c + 1) - G.node 0 c)) =
            ((G.node 0 (c + 1) - G.node 0 c) * F (x 0) + (G.node 0 c - x 0) * F (G.node 0 (c + 1)) -
              (G.node 0 (c + 1) - x 0) * F (G.node 0 c)) / (G.node 0 (c + 1) - G.node 0 c) := by
          field_simp
          ring
        rw [this]
        exact div_nonneg (by linarith) hd.le
    · rcases eq_or_lt_of_le ho with h | h
      · rw [← h, div_self hd.ne']; linarith
      · have h1 := hF.secant_mono_aux1 (x := G.node 0 c) (y := G.node 0 (c + 1)) (z := x 0) trivial
          trivial hw h
        rw [div_mul_eq_mul_div, ← sub_nonneg]
        have : F (x 0) - (F (G.node 0 c) + (x 0 - G.node 0 c) *
            (F (G.node 0 (c + 1)) - F (G.node 0 c)) / (G.node 0 (c + 1) - G.node 0 c)) =
            ((x 0 - G.node 0 (c + 1)) * F (G.node 0 c) + (G.node 0 (c + 1) - G.node 0 c) * F (x 0) -
              (x 0 - G.node 0 c) * F (G.node 0 (c + 1))) / (G.node 0 (c + 1) - G.node 0 c) := by
          field_simp
          ring
        rw [this]
        exact div_nonneg (by linarith) hd.le
  have fin : ∀ c, InCell (G.size 0) (G.node 0) (x 0) c →
      (x 0 ≤ G.node 0 c ∨ G.node 0 (c + 1) ≤ x 0) →
      ∃ y, multilinearAt e fma G vals x = .ok y ∧ y ≤ F (x 0) := by
    intro c hc ho
    refine ⟨_, multilinearAt_eq e he fma G vals hG _ hg x hx (fun _ => c) (fun k => ?_), ?_⟩
    · rw [Subsingleton.elim k 0]; exact hc
    · exact main c hc ho
  rcases hout with h | h
  · refine fin 0 ⟨by omega, Or.inl rfl, ?_⟩ (Or.inl h)
    by_cases h2 : 0 + 2 = G.size 0
    · exact Or.inl h2
    · exact Or.inr (h.trans (hi.le (by omega) (by omega)))
  · refine fin (G.size 0 - 2) ⟨by omega, Or.inr (le_trans (hi.le (by omega) (by omega)) h),
      Or.inl (by omega)⟩ (Or.inr ?_)
    rwa [show G.size 0 - 2 + 1 = G.size 0 - 1 by omega]

end

/-! ### IEEE 754 -/

section
open Ieee
variable {N : Nat}

theorem convexOn_sub {s : Set ℚ} {f : ℚ → ℚ} {δ : ℚ} (h : ConvexOn ℚ s f) :
    ConvexOn ℚ s fun z => f z - δ := by
  refine ⟨h.1, fun a ha b hb u v hu hv huv => ?_⟩
  have h1 := h.2 ha hb hu hv huv
  simp only [smul_eq_mul] at h1 ⊢
  have e : u * (f a - δ) + v * (f b - δ) = u * f a + v * f b - δ := by linear_combination -δ * huv
  rw [e]; linarith

theorem concaveOn_add {s : Set ℚ} {f : ℚ → ℚ} {δ : ℚ} (h : ConcaveOn ℚ s f) :
    ConcaveOn ℚ s fun z => f z + δ := by
  refine ⟨h.1, fun a ha b hb u v hu hv huv => ?_⟩
  have h1 := h.2 ha hb hu hv huv
  simp only [smul_eq_mul] at h1 ⊢
  have e : u * (f a + δ) + v * (f b + δ) = u * f a + v * f b + δ := by linear_combination δ * huv
  rw [e]; linarith

theorem inRange_of_map {f : Format} {grids : Fin N → List (Ieee f)} {x : Fin N → Ieee f}
    (hin : ∀ k, InRange (grids k).length (fun i => ((grids k).map val).getD i 0) (val (x k))) :
    ∀ k, InRange ((Axes.rectilinear fun k => (grids k).map val).size k)
      ((Axes.rectilinear fun k => (grids k).map val).node k) (val (x k)) := by
  intro k
  have := hin k
  rw [← List.length_map (f := val)] at this
  exact this

/-- C106 in `f64`, rectilinear grids: not below `F`, for `F` convex in each coordinate, up to the
error `δ` of the values and the rounding bound of C81. -/
theorem C106_above_rectilinear_f64 (e : Evaluator) (he : e.Fits N) (hN : N ≤ 1000) (fma : Bool)
    (grids : Fin N → List F64) (vals : List F64)
    (hG : (Axes.rectilinear fun k => (grids k).map val).Valid 2 (vals.map val))
    (hgrid : ∀ k, ∀ a ∈ grids k, Finite a ∧ |val a| ≤ 2 ^ 1022) (M : ℚ) (hM : M ≤ 2 ^ 1020)
    (hvals : ∀ v ∈ vals, Finite v ∧ |val v| ≤ M) (δ : ℚ)
    (F : (Fin N → ℚ) → ℚ)
    (hF : ∀ k y, (∀ j, InRange (grids j).length (fun i => ((grids j).map val).getD i 0) (y j)) →
      ConvexOn ℚ (Set.Icc (((grids k).map val).getD 0 0)
        (((grids k).map val).getD ((grids k).length - 1) 0)) fun z => F (Function.update y k z))
    (g : (Fin N → Nat) → ℚ) (hg : Samples (fun k => (grids k).length) (vals.map val) g)
    (hFg : ∀ loc : Fin N → Nat, (∀ k, loc k < (grids k).length) →
      F (fun k => ((grids k).map val).getD (loc k) 0) ≤ g loc + δ)
    (x : Fin N → F64) (hx : ∀ k, Finite (x k))
    (hin : ∀ k, InRange (grids k).length (fun i => ((grids k).map val).getD i 0) (val (x k))) :
    ∃ r, multilinearRectilinearAt e fma grids vals x = .ok r ∧ Finite r ∧
      F (fun k => val (x k)) - (δ + 26 * N * (1 / 2 ^ 53) * M + 3 * N * (1 / 2 ^ 1075)) ≤ val r := by
  obtain ⟨r, y, h1, h2, h3, h4⟩ := C81_rectilinear_f64 e he hN fma grids vals hG hgrid M hM hvals x hx hin
  have hin' := inRange_of_map hin
  have hsz : (Axes.rectilinear fun k => (grids k).map val).size = fun k => (grids k).length :=
    funext fun k => List.length_map ..
  obtain ⟨z, e1, hz⟩ := C106_above e he fma _ _ hG (fun y => F y - δ) (fun k y hy => by
      have := hF k y (fun j => by
        have := hy j
        rw [hsz] at this
        exact this)
      rw [hsz]
      exact convexOn_sub this) g (by rw [hsz]; exact hg)
    (fun loc hl => by rw [hsz] at hl; have := hFg loc hl; exact sub_le_iff_le_add.2 this) (fun k => val (x k))
    (hG.inRange_fits le_rfl hin' _ (by decide)) hin'
  rw [h3] at e1; cases e1
  refine ⟨r, h1, h2, ?_⟩
  have := abs_le.1 h4
  linarith

/-- C106 in `f64`, regular grids: not below `F`, for `F` convex in each coordinate, up to the
error `δ` of the values and the rounding bound of C81. -/
theorem C106_above_regular_f64 (e : Evaluator) (he : e.Fits N) (fma : Bool) (κ : ℚ) (hκ : 0 ≤ κ)
    (hN : 100 * N * (1 + κ) ≤ 2 ^ 53)
    (dims : Fin N → Nat) (starts steps : Fin N → F64) (vals : List F64)
    (hG : (Axes.regular dims (fun k => val (starts k)) fun k => val (steps k)).Valid 2
      (vals.map val))
    (hfin : ∀ k, Finite (starts k) ∧ Finite (steps k))
    (hnormal : ∀ k, 1 / 2 ^ 1022 ≤ val (steps k))
    (hnodes : ∀ k, |val (starts k)| ≤ κ * val (steps k) ∧
      |val (starts k) + val (steps k) * ((dims k - 1 : Nat) : ℚ)| ≤ κ * val (steps k))
    (hlarge : ∀ k, κ * val (steps k) ≤ 2 ^ 1020) (M : ℚ) (hM : M ≤ 2 ^ 1020)
    (hvals : ∀ v ∈ vals, Finite v ∧ |val v| ≤ M) (δ : ℚ)
    (F : (Fin N → ℚ) → ℚ)
    (hF : ∀ k y,
      (∀ j, InRange (dims j) (fun i => val (starts j) + val (steps j) * (i : ℚ)) (y j)) →
      ConvexOn ℚ (Set.Icc (val (starts k))
        (val (starts k) + val (steps k) * ((dims k - 1 : Nat) : ℚ))) fun z => F (Function.update y k z))
    (g : (Fin N → Nat) → ℚ) (hg : Samples dims (vals.map val) g)
    (hFg : ∀ loc : Fin N → Nat, (∀ k, loc k < dims k) →
      F (fun k => val (starts k) + val (steps k) * (loc k : ℚ)) ≤ g loc + δ)
    (x : Fin N → F64) (hx : ∀ k, Finite (x k))
    (hin : ∀ k, InRange (dims k) (fun i => val (starts k) + val (steps k) * (i : ℚ)) (val (x k))) :
    ∃ r, multilinearRegularAt e fma dims starts steps vals x = .ok r ∧ Finite r ∧
      F (fun k => val (x k)) - (δ + 60 * N * (1 + κ) * (1 / 2 ^ 53) * M + 3 * N * (1 / 2 ^ 1075)) ≤ val r := by
  obtain ⟨r, y, h1, h2, h3, h4⟩ := C81_regular_f64 e he fma κ hκ hN dims starts steps vals hG hfin
    hnormal hnodes hlarge M hM hvals x hx hin
  obtain ⟨z, e1, hz⟩ := C106_above e he fma _ _ hG (fun y => F y - δ) (fun k y hy => by
      have := hF k y hy
      have e0 : (Axes.regular dims (fun k => val (starts k)) fun k => val (steps k)).node k 0 =
          val (starts k) := by simp [Axes.node]
      rw [e0]
      exact convexOn_sub this) g hg (fun loc hl => sub_le_iff_le_add.2 (hFg loc hl)) (fun k => val (x k))
    (hG.inRange_fits le_rfl hin _ (by decide)) hin
  rw [h3] at e1; cases e1
  refine ⟨r, h1, h2, ?_⟩
  have := abs_le.1 h4
  linarith

/-- C106 in `f64`, rectilinear grids: not above `F`, for `F` concave in each coordinate, up to the
error `δ` of the values and the rounding bound of C81. -/
theorem C106_below_rectilinear_f64 (e : Evaluator) (he : e.Fits N) (hN : N ≤ 1000) (fma : Bool)
    (grids : Fin N → List F64) (vals : List F64)
    (hG : (Axes.rectilinear fun k => (grids k).map val).Valid 2 (vals.map val))
    (hgrid : ∀ k, ∀ a ∈ grids k, Finite a ∧ |val a| ≤ 2 ^ 1022) (M : ℚ) (hM : M ≤ 2 ^ 1020)
    (hvals : ∀ v ∈ vals, Finite v ∧ |val v| ≤ M) (δ : ℚ)
    (F : (Fin N → ℚ) → ℚ)
    (hF : ∀ k y, (∀ j, InRange (grids j).length (fun i => ((grids j).map val).getD i 0) (y j)) →
      ConcaveOn ℚ (Set.Icc (((grids k).map val).getD 0 0)
        (((grids k).map val).getD ((grids k).length - 1) 0)) fun z => F (Function.update y k z))
    (g : (Fin N → Nat) → ℚ) (hg : Samples (fun k => (grids k).length) (vals.map val) g)
    (hFg : ∀ loc : Fin N → Nat, (∀ k, loc k < (grids k).length) →
      g loc ≤ F (fun k => ((grids k).map val).getD (loc k) 0) + δ)
    (x : Fin N → F64) (hx : ∀ k, Finite (x k))
    (hin : ∀ k, InRange (grids k).length (fun i => ((grids k).map val).getD i 0) (val (x k))) :
    ∃ r, multilinearRectilinearAt e fma grids vals x = .ok r ∧ Finite r ∧
      val r ≤ F (fun k => val (x k)) + (δ + 26 * N * (1 / 2 ^ 53) * M + 3 * N * (1 / 2 ^ 1075)) := by
  obtain ⟨r, y, h1, h2, h3, h4⟩ := C81_rectilinear_f64 e he hN fma grids vals hG hgrid M hM hvals x hx hin
  have hin' := inRange_of_map hin
  have hsz : (Axes.rectilinear fun k => (grids k).map val).size = fun k => (grids k).length :=
    funext fun k => List.length_map ..
  obtain ⟨z, e1, hz⟩ := C106_below e he fma _ _ hG (fun y => F y + δ) (fun k y hy => by
      have := hF k y (fun j => by
        have := hy j
        rw [hsz] at this
        exact this)
      rw [hsz]
      exact concaveOn_add this) g (by rw [hsz]; exact hg)
    (fun loc hl => by rw [hsz] at hl; have := hFg loc hl; exact this) (fun k => val (x k))
    (hG.inRange_fits le_rfl hin' _ (by decide)) hin'
  rw [h3] at e1; cases e1
  refine ⟨r, h1, h2, ?_⟩
  have := abs_le.1 h4
  linarith

/-- C106 in `f64`, regular grids: not above `F`, for `F` concave in each coordinate, up to the
error `δ` of the values and the rounding bound of C81. -/
theorem C106_below_regular_f64 (e : Evaluator) (he : e.Fits N) (fma : Bool) (κ : ℚ) (hκ : 0 ≤ κ)
    (hN : 100 * N * (1 + κ) ≤ 2 ^ 53)
    (dims : Fin N → Nat) (starts steps : Fin N → F64) (vals : List F64)
    (hG : (Axes.regular dims (fun k => val (starts k)) fun k => val (steps k)).Valid 2
      (vals.map val))
    (hfin : ∀ k, Finite (starts k) ∧ Finite (steps k))
    (hnormal : ∀ k, 1 / 2 ^ 1022 ≤ val (steps k))
    (hnodes : ∀ k, |val (starts k)| ≤ κ * val (steps k) ∧
      |val (starts k) + val (steps k) * ((dims k - 1 : Nat) : ℚ)| ≤ κ * val (steps k))
    (hlarge : ∀ k, κ * val (steps k) ≤ 2 ^ 1020) (M : ℚ) (hM : M ≤ 2 ^ 1020)
    (hvals : ∀ v ∈ vals, Finite v ∧ |val v| ≤ M) (δ : ℚ)
    (F : (Fin N → ℚ) → ℚ)
    (hF : ∀ k y,
      (∀ j, InRange (dims j) (fun i => val (starts j) + val (steps j) * (i : ℚ)) (y j)) →
      ConcaveOn ℚ (Set.Icc (val (starts k))
        (val (starts k) + val (steps k) * ((dims k - 1 : Nat) : ℚ))) fun z => F (Function.update y k z))
    (g : (Fin N → Nat) → ℚ) (hg : Samples dims (vals.map val) g)
    (hFg : ∀ loc : Fin N → Nat, (∀ k, loc k < dims k) →
      g loc ≤ F (fun k => val (starts k) + val (steps k) * (loc k : ℚ)) + δ)
    (x : Fin N → F64) (hx : ∀ k, Finite (x k))
    (hin : ∀ k, InRange (dims k) (fun i => val (starts k) + val (steps k) * (i : ℚ)) (val (x k))) :
    ∃ r, multilinearRegularAt e fma dims starts steps vals x = .ok r ∧ Finite r ∧
      val r ≤ F (fun k => val (x k)) + (δ + 60 * N * (1 + κ) * (1 / 2 ^ 53) * M + 3 * N * (1 / 2 ^ 1075)) := by
  obtain ⟨r, y, h1, h2, h3, h4⟩ := C81_regular_f64 e he fma κ hκ hN dims starts steps vals hG hfin
    hnormal hnodes hlarge M hM hvals x hx hin
  obtain ⟨z, e1, hz⟩ := C106_below e he fma _ _ hG (fun y => F y + δ) (fun k y hy => by
      have := hF k y hy
      have e0 : (Axes.regular dims (fun k => val (starts k)) fun k => val (steps k)).node k 0 =
          val (starts k) := by simp [Axes.node]
      rw [e0]
      exact concaveOn_add this) g hg (fun loc hl => hFg loc hl) (fun k => val (x k))
    (hG.inRange_fits le_rfl hin _ (by decide)) hin
  rw [h3] at e1; cases e1
  refine ⟨r, h1, h2, ?_⟩
  have := abs_le.1 h4
  linarith

/-- C106 in `f32`, rectilinear grids: not below `F`, for `F` convex in each coordinate, up to the
error `δ` of the values and the rounding bound of C81. -/
theorem C106_above_rectilinear_f32 (e : Evaluator) (he : e.Fits N) (hN : N ≤ 1000) (fma : Bool)
    (grids : Fin N → List F32) (vals : List F32)
    (hG : (Axes.rectilinear fun k => (grids k).map val).Valid 2 (vals.map val))
    (hgrid : ∀ k, ∀ a ∈ grids k, Finite a ∧ |val a| ≤ 2 ^ 126) (M : ℚ) (hM : M ≤ 2 ^ 124)
    (hvals : ∀ v ∈ vals, Finite v ∧ |val v| ≤ M) (δ : ℚ)
    (F : (Fin N → ℚ) → ℚ)
    (hF : ∀ k y, (∀ j, InRange (grids j).length (fun i => ((grids j).map val).getD i 0) (y j)) →
      ConvexOn ℚ (Set.Icc (((grids k).map val).getD 0 0)
        (((grids k).map val).getD ((grids k).length - 1) 0)) fun z => F (Function.update y k z))
    (g : (Fin N → Nat) → ℚ) (hg : Samples (fun k => (grids k).length) (vals.map val) g)
    (hFg : ∀ loc : Fin N → Nat, (∀ k, loc k < (grids k).length) →
      F (fun k => ((grids k).map val).getD (loc k) 0) ≤ g loc + δ)
    (x : Fin N → F32) (hx : ∀ k, Finite (x k))
    (hin : ∀ k, InRange (grids k).length (fun i => ((grids k).map val).getD i 0) (val (x k))) :
    ∃ r, multilinearRectilinearAt e fma grids vals x = .ok r ∧ Finite r ∧
      F (fun k => val (x k)) - (δ + 26 * N * (1 / 2 ^ 24) * M + 3 * N * (1 / 2 ^ 150)) ≤ val r := by
  obtain ⟨r, y, h1, h2, h3, h4⟩ := C81_rectilinear_f32 e he hN fma grids vals hG hgrid M hM hvals x hx hin
  have hin' := inRange_of_map hin
  have hsz : (Axes.rectilinear fun k => (grids k).map val).size = fun k => (grids k).length :=
    funext fun k => List.length_map ..
  obtain ⟨z, e1, hz⟩ := C106_above e he fma _ _ hG (fun y => F y - δ) (fun k y hy => by
      have := hF k y (fun j => by
        have := hy j
        rw [hsz] at this
        exact this)
      rw [hsz]
      exact convexOn_sub this) g (by rw [hsz]; exact hg)
    (fun loc hl => by rw [hsz] at hl; have := hFg loc hl; exact sub_le_iff_le_add.2 this) (fun k => val (x k))
    (hG.inRange_fits le_rfl hin' _ (by decide)) hin'
  rw [h3] at e1; cases e1
  refine ⟨r, h1, h2, ?_⟩
  have := abs_le.1 h4
  linarith

/-- C106 in `f32`, regular grids: not below `F`, for `F` convex in each coordinate, up to the
error `δ` of the values and the rounding bound of C81. -/
theorem C106_above_regular_f32 (e : Evaluator) (he : e.Fits N) (fma : Bool) (κ : ℚ) (hκ : 0 ≤ κ)
    (hN : 100 * N * (1 + κ) ≤ 2 ^ 24)
    (dims : Fin N → Nat) (starts steps : Fin N → F32) (vals : List F32)
    (hG : (Axes.regular dims (fun k => val (starts k)) fun k => val (steps k)).Valid 2
      (vals.map val))
    (hfin : ∀ k, Finite (starts k) ∧ Finite (steps k))
    (hnormal : ∀ k, 1 / 2 ^ 126 ≤ val (steps k))
    (hnodes : ∀ k, |val (starts k)| ≤ κ * val (steps k) ∧
      |val (starts k) + val (steps k) * ((dims k - 1 : Nat) : ℚ)| ≤ κ * val (steps k))
    (hlarge : ∀ k, κ * val (steps k) ≤ 2 ^ 124) (M : ℚ) (hM : M ≤ 2 ^ 124)
    (hvals : ∀ v ∈ vals, Finite v ∧ |val v| ≤ M) (δ : ℚ)
    (F : (Fin N → ℚ) → ℚ)
    (hF : ∀ k y,
      (∀ j, InRange (dims j) (fun i => val (starts j) + val (steps j) * (i : ℚ)) (y j)) →
      ConvexOn ℚ (Set.Icc (val (starts k))
        (val (starts k) + val (steps k) * ((dims k - 1 : Nat) : ℚ))) fun z => F (Function.update y k z))
    (g : (Fin N → Nat) → ℚ) (hg : Samples dims (vals.map val) g)
    (hFg : ∀ loc : Fin N → Nat, (∀ k, loc k < dims k) →
      F (fun k => val (starts k) + val (steps k) * (loc k : ℚ)) ≤ g loc + δ)
    (x : Fin N → F32) (hx : ∀ k, Finite (x k))
    (hin : ∀ k, InRange (dims k) (fun i => val (starts k) + val (steps k) * (i : ℚ)) (val (x k))) :
    ∃ r, multilinearRegularAt e fma dims starts steps vals x = .ok r ∧ Finite r ∧
      F (fun k => val (x k)) - (δ + 60 * N * (1 + κ) * (1 / 2 ^ 24) * M + 3 * N * (1 / 2 ^ 150)) ≤ val r := by
  obtain ⟨r, y, h1, h2, h3, h4⟩ := C81_regular_f32 e he fma κ hκ hN dims starts steps vals hG hfin
    hnormal hnodes hlarge M hM hvals x hx hin
  obtain ⟨z, e1, hz⟩ := C106_above e he fma _ _ hG (fun y => F y - δ) (fun k y hy => by
      have := hF k y hy
      have e0 : (Axes.regular dims (fun k => val (starts k)) fun k => val (steps k)).node k 0 =
          val (starts k) := by simp [Axes.node]
      rw [e0]
      exact convexOn_sub this) g hg (fun loc hl => sub_le_iff_le_add.2 (hFg loc hl)) (fun k => val (x k))
    (hG.inRange_fits le_rfl hin _ (by decide)) hin
  rw [h3] at e1; cases e1
  refine ⟨r, h1, h2, ?_⟩
  have := abs_le.1 h4
  linarith

/-- C106 in `f32`, rectilinear grids: not above `F`, for `F` concave in each coordinate, up to the
error `δ` of the values and the rounding bound of C81. -/
theorem C106_below_rectilinear_f32 (e : Evaluator) (he : e.Fits N) (hN : N ≤ 1000) (fma : Bool)
    (grids : Fin N → List F32) (vals : List F32)
    (hG : (Axes.rectilinear fun k => (grids k).map val).Valid 2 (vals.map val))
    (hgrid : ∀ k, ∀ a ∈ grids k, Finite a ∧ |val a| ≤ 2 ^ 126) (M : ℚ) (hM : M ≤ 2 ^ 124)
    (hvals : ∀ v ∈ vals, Finite v ∧ |val v| ≤ M) (δ : ℚ)
    (F : (Fin N → ℚ) → ℚ)
    (hF : ∀ k y, (∀ j, InRange (grids j).length (fun i => ((grids j).map val).getD i 0) (y j)) →
      ConcaveOn ℚ (Set.Icc (((grids k).map val).getD 0 0)
        (((grids k).map val).getD ((grids k).length - 1) 0)) fun z => F (Function.update y k z))
    (g : (Fin N → Nat) → ℚ) (hg : Samples (fun k => (grids k).length) (vals.map val) g)
    (hFg : ∀ loc : Fin N → Nat, (∀ k, loc k < (grids k).length) →
      g loc ≤ F (fun k => ((grids k).map val).getD (loc k) 0) + δ)
    (x : Fin N → F32) (hx : ∀ k, Finite (x k))
    (hin : ∀ k, InRange (grids k).length (fun i => ((grids k).map val).getD i 0) (val (x k))) :
    ∃ r, multilinearRectilinearAt e fma grids vals x = .ok r ∧ Finite r ∧
      val r ≤ F (fun k => val (x k)) + (δ + 26 * N * (1 / 2 ^ 24) * M + 3 * N * (1 / 2 ^ 150)) := by
  obtain ⟨r, y, h1, h2, h3, h4⟩ := C81_rectilinear_f32 e he hN fma grids vals hG hgrid M hM hvals x hx hin
  have hin' := inRange_of_map hin
  have hsz : (Axes.rectilinear fun k => (grids k).map val).size = fun k => (grids k).length :=
    funext fun k => List.length_map ..
  obtain ⟨z, e1, hz⟩ := C106_below e he fma _ _ hG (fun y => F y + δ) (fun k y hy => by
      have := hF k y (fun j => by
        have := hy j
        rw [hsz] at this
        exact this)
      rw [hsz]
      exact concaveOn_add this) g (by rw [hsz]; exact hg)
    (fun loc hl => by rw [hsz] at hl; have := hFg loc hl; exact this) (fun k => val (x k))
    (hG.inRange_fits le_rfl hin' _ (by decide)) hin'
  rw [h3] at e1; cases e1
  refine ⟨r, h1, h2, ?_⟩
  have := abs_le.1 h4
  linarith

/-- C106 in `f32`, regular grids: not above `F`, for `F` concave in each coordinate, up to the
error `δ` of the values and the rounding bound of C81. -/
theorem C106_below_regular_f32 (e : Evaluator) (he : e.Fits N) (fma : Bool) (κ : ℚ) (hκ : 0 ≤ κ)
    (hN : 100 * N * (1 + κ) ≤ 2 ^ 24)
    (dims : Fin N → Nat) (starts steps : Fin N → F32) (vals : List F32)
    (hG : (Axes.regular dims (fun k => val (starts k)) fun k => val (steps k)).Valid 2
      (vals.map val))
    (hfin : ∀ k, Finite (starts k) ∧ Finite (steps k))
    (hnormal : ∀ k, 1 / 2 ^ 126 ≤ val (steps k))
    (hnodes : ∀ k, |val (starts k)| ≤ κ * val (steps k) ∧
      |val (starts k) + val (steps k) * ((dims k - 1 : Nat) : ℚ)| ≤ κ * val (steps k))
    (hlarge : ∀ k, κ * val (steps k) ≤ 2 ^ 124) (M : ℚ) (hM : M ≤ 2 ^ 124)
    (hvals : ∀ v ∈ vals, Finite v ∧ |val v| ≤ M) (δ : ℚ)
    (F : (Fin N → ℚ) → ℚ)
    (hF : ∀ k y,
      (∀ j, InRange (dims j) (fun i => val (starts j) + val (steps j) * (i : ℚ)) (y j)) →
      ConcaveOn ℚ (Set.Icc (val (starts k))
        (val (starts k) + val (steps k) * ((dims k - 1 : Nat) : ℚ))) fun z => F (Function.update y k z))
    (g : (Fin N → Nat) → ℚ) (hg : Samples dims (vals.map val) g)
    (hFg : ∀ loc : Fin N → Nat, (∀ k, loc k < dims k) →
      g loc ≤ F (fun k => val (starts k) + val (steps k) * (loc k : ℚ)) + δ)
    (x : Fin N → F32) (hx : ∀ k, Finite (x k))
    (hin : ∀ k, InRange (dims k) (fun i => val (starts k) + val (steps k) * (i : ℚ)) (val (x k))) :
    ∃ r, multilinearRegularAt e fma dims starts steps vals x = .ok r ∧ Finite r ∧
      val r ≤ F (fun k => val (x k)) + (δ + 60 * N * (1 + κ) * (1 / 2 ^ 24) * M + 3 * N * (1 / 2 ^ 150)) := by
  obtain ⟨r, y, h1, h2, h3, h4⟩ := C81_regular_f32 e he fma κ hκ hN dims starts steps vals hG hfin
    hnormal hnodes hlarge M hM hvals x hx hin
  obtain ⟨z, e1, hz⟩ := C106_below e he fma _ _ hG (fun y => F y + δ) (fun k y hy => by
      have := hF k y hy
      have e0 : (Axes.regular dims (fun k => val (starts k)) fun k => val (steps k)).node k 0 =
          val (starts k) := by simp [Axes.node]
      rw [e0]
      exact concaveOn_add this) g hg (fun loc hl => hFg loc hl) (fun k => val (x k))
    (hG.inRange_fits le_rfl hin _ (by decide)) hin
  rw [h3] at e1; cases e1
  refine ⟨r, h1, h2, ?_⟩
  have := abs_le.1 h4
  linarith

end

/-! ### Cubic interpolation -/

/-- Cubic interpolation has neither property: the data below are convex, samples of `max (x - 2) 0`,
but between nodes 1 and 2 the interpolant falls below 0 and is not convex. -/
theorem C106_cubic_counterexample :
    let G : Axes ℚ 1 := .rectilinear fun _ => [0, 1, 2, 3, 4]
    let vals : List ℚ := [0, 0, 0, 1, 2]
    G.Valid 4 vals ∧ Samples G.size vals (fun loc => max (G.node 0 (loc 0) - 2) 0) ∧
    InRange (G.size 0) (G.node 0) (3 / 2) ∧
    multicubicAt .flat false G vals false ![3 / 2] = .ok (-1 / 16) ∧
    multicubicAt .flat false G vals false ![1] = .ok 0 ∧
    multicubicAt .flat false G vals false ![1 / 2] = .ok 0 := by
  refine ⟨valid_of_check ?_, samples_of_check ?_, ?_⟩
  · decide +kernel
  · decide +kernel
  · decide +kernel

/-! ### The hypotheses can be met -/

theorem convexOn_square (s : Set ℚ) (hs : Convex ℚ s) (a : ℚ) :
    ConvexOn ℚ s fun z => z ^ 2 + a := by
  refine ⟨hs, fun x _ y _ u v hu hv huv => ?_⟩
  simp only [smul_eq_mul]
  obtain rfl : u = 1 - v := by linarith
  nlinarith [mul_nonneg (mul_nonneg hu hv) (sq_nonneg (x - y))]

/-- The sum of the squares of two coordinates. -/
def squares (x : Fin 2 → ℚ) : ℚ := x 0 ^ 2 + x 1 ^ 2

theorem squares_convex (s : Fin 2 → Set ℚ) (hs : ∀ k, Convex ℚ (s k)) (k : Fin 2) (y : Fin 2 → ℚ) :
    ConvexOn ℚ (s k) fun z => squares (Function.update y k z) := by
  fin_cases k
  · simpa [squares] using convexOn_square _ (hs 0) (y 1 ^ 2)
  · simpa [squares, add_comm] using convexOn_square _ (hs 1) (y 0 ^ 2)

theorem neg_squares_concave (s : Fin 2 → Set ℚ) (hs : ∀ k, Convex ℚ (s k)) (k : Fin 2)
    (y : Fin 2 → ℚ) : ConcaveOn ℚ (s k) fun z => -squares (Function.update y k z) := by
  exact (squares_convex s hs k y).neg

/-- `C106_above`: samples of `x² + y²`. -/
example : ∃ y, multilinearAt .flat false exRectilinear (exSample exRectilinear squares) ![2, 2] =
    .ok y ∧ squares ![2, 2] ≤ y ∧ y = 11 ∧ squares ![2, 2] = 8 := by
  obtain ⟨y, h1, h2⟩ := C106_above .flat (show 0 < 2 by decide) false exRectilinear
    (exSample exRectilinear squares) (valid_of_check (by decide +kernel)) squares
    (fun k y _ => squares_convex
      (fun k => Set.Icc (exRectilinear.node k 0) (exRectilinear.node k (exRectilinear.size k - 1)))
      (fun _ => convex_Icc _ _) k y)
    (fun loc => squares fun k => exRectilinear.node k (loc k)) (samples_of_check (by decide +kernel))
    (fun _ _ => le_rfl) ![2, 2] trivial (by decide +kernel)
  refine ⟨y, h1, h2, ?_, by decide +kernel⟩
  have : multilinearAt .flat false exRectilinear (exSample exRectilinear squares) ![2, 2] =
    .ok 11 := by decide +kernel
  rw [this] at h1
  cases h1; rfl

/-- `C106_below`: samples of `-x² - y²`. -/
example : ∃ y, multilinearAt (.recursive 8) true exRegular
    (exSample exRegular fun x => -squares x) ![1 / 2, 2] = .ok y ∧ y ≤ -squares ![1 / 2, 2] :=
  C106_below (.recursive 8) (show 0 < 2 ∧ 2 ≤ 8 by decide) true exRegular
    (exSample exRegular fun x => -squares x) (valid_of_check (by decide +kernel)) (fun x => -squares x)
    (fun k y _ => neg_squares_concave
      (fun k => Set.Icc (exRegular.node k 0) (exRegular.node k (exRegular.size k - 1)))
      (fun _ => convex_Icc _ _) k y)
    (fun loc => -squares fun k => exRegular.node k (loc k)) (samples_of_check (by decide +kernel))
    (fun _ _ => le_rfl) ![1 / 2, 2] (by decide +kernel) (by decide +kernel)

/-- The hypothesis of `C106_convex` in a form that can be computed. -/
theorem convex_of_check {G : Axes ℚ 2} {g : (Fin 2 → Nat) → ℚ}
    (h : ∀ b : Fin (G.size 1), ∀ i : Fin (G.size 0 - 2),
      (g ![i.val + 1, b.val] - g ![i.val, b.val]) / (G.node 0 (i.val + 1) - G.node 0 i.val) ≤
      (g ![i.val + 2, b.val] - g ![i.val + 1, b.val]) /
        (G.node 0 (i.val + 2) - G.node 0 (i.val + 1))) :
    ∀ loc : Fin 2 → Nat, (∀ k, loc k < G.size k) → ∀ i, i + 2 < G.size 0 →
      (g (Function.update loc 0 (i + 1)) - g (Function.update loc 0 i)) /
          (G.node 0 (i + 1) - G.node 0 i) ≤
        (g (Function.update loc 0 (i + 2)) - g (Function.update loc 0 (i + 1))) /
          (G.node 0 (i + 2) - G.node 0 (i + 1)) := by
  intro loc hl i hi
  have e : ∀ a, Function.update loc 0 a = ![a, loc 1] := by
    intro a; funext k; fin_cases k <;> simp
  simp only [e]
  exact h ⟨loc 1, hl 1⟩ ⟨i, by omega⟩

/-- `C106_convex`: samples of `x² + y²` on a 5×4 grid, convex along the first axis. -/
example : ∃ φ : ℚ → ℚ, ConvexOn ℚ Set.univ φ ∧ ∀ z,
    multilinearAt .flat true exRectilinear4 (exSample exRectilinear4 squares)
      (Function.update ![0, 2] 0 z) = .ok (φ z) := by
  obtain ⟨φ, h, h'⟩ := C106_convex .flat (show 0 < 2 by decide) true exRectilinear4
    (exSample exRectilinear4 squares) (valid_of_check (by decide +kernel))
    (fun loc => squares fun k => exRectilinear4.node k (loc k)) (samples_of_check (by decide +kernel))
    0 (fun loc hl i hi => convex_of_check (G := exRectilinear4)
        (g := fun loc => squares fun k => exRectilinear4.node k (loc k)) (by decide +kernel) loc hl i hi)
    ![0, 2] (by decide +kernel)
  exact ⟨φ, h, fun z => h' z trivial⟩

/-- `C106_concave`: samples of `-x² - y²`. -/
example : ∃ φ : ℚ → ℚ, ConcaveOn ℚ Set.univ φ ∧ ∀ z,
    multilinearAt .flat true exRectilinear4 (exSample exRectilinear4 fun x => -squares x)
      (Function.update ![0, 2] 0 z) = .ok (φ z) := by
  obtain ⟨φ, h, h'⟩ := C106_concave .flat (show 0 < 2 by decide) true exRectilinear4
    (exSample exRectilinear4 fun x => -squares x) (valid_of_check (by decide +kernel))
    (fun loc => -squares fun k => exRectilinear4.node k (loc k))
    (samples_of_check (by decide +kernel)) 0
    (fun loc hl i hi => by
      have := convex_of_check (G := exRectilinear4)
        (g := fun loc => squares fun k => exRectilinear4.node k (loc k)) (by decide +kernel) loc hl i hi
      rw [← neg_le_neg_iff, ← neg_div, ← neg_div]
      simp only [neg_sub, neg_sub_neg] at this ⊢
      exact this)
    ![0, 2] (by decide +kernel)
  exact ⟨φ, h, fun z => h' z trivial⟩

/-- `C106_extrapolation`: `x²` sampled at 0, 1, 4, extrapolated to 6. -/
example : ∃ y, multilinearAt .flat false (.rectilinear fun _ : Fin 1 => [(0 : ℚ), 1, 4]) [0, 1, 16]
    ![6] = .ok y ∧ y ≤ (![6] 0 : ℚ) ^ 2 + 0 ∧ y = 26 := by
  obtain ⟨y, h1, h2⟩ := C106_extrapolation .flat (show 0 < 1 by decide) false
    (.rectilinear fun _ : Fin 1 => [(0 : ℚ), 1, 4]) [0, 1, 16] (valid_of_check (by decide +kernel))
    (fun z => z ^ 2 + 0) (convexOn_square _ convex_univ 0) (samples_of_check (by decide +kernel)) ![6]
    trivial (by decide +kernel)
  refine ⟨y, h1, h2, ?_⟩
  have : multilinearAt .flat false (.rectilinear fun _ : Fin 1 => [(0 : ℚ), 1, 4]) [0, 1, 16] ![6] =
    .ok 26 := by decide +kernel
  rw [this] at h1
  cases h1; rfl

section
open Ieee

/-- `C106_above_rectilinear_f64`: rounded samples of `(x² + y²)` at rounded nodes. -/
example : ∃ r, multilinearRectilinearAt .flat false exGrids64 (([1, 9, 101 / 100, 901 / 100, 17, 25] : List ℚ).map fun v => q64 (v))
      ![q64 (1 / 3), q64 (5 / 3)] = .ok r ∧ squares (fun k => val (![q64 (1 / 3), q64 (5 / 3)] k)) - 1 / 10 ^ 12 ≤ val r := by
  obtain ⟨r, h1, -, h2⟩ := C106_above_rectilinear_f64 .flat (show 0 < 2 by decide) (by norm_num) false
    exGrids64 (([1, 9, 101 / 100, 901 / 100, 17, 25] : List ℚ).map fun v => q64 (v)) (valid_of_check (by decide +kernel)) (by decide +kernel) 25 (by norm_num)
    (by decide +kernel) (1 / 10 ^ 15) squares
    (fun k y _ => squares_convex (fun k => Set.Icc (((exGrids64 k).map val).getD 0 0)
        (((exGrids64 k).map val).getD ((exGrids64 k).length - 1) 0)) (fun _ => convex_Icc _ _) k y)
    (valAt 0 (fun k => (exGrids64 k).length) ((([1, 9, 101 / 100, 901 / 100, 17, 25] : List ℚ).map fun v => q64 (v)).map val)) (samples_valAt _ _ _ (by decide +kernel))
    (fun loc hl => (by decide +kernel : ∀ loc : (k : Fin 2) → Fin (exGrids64 k).length, squares (fun k => ((exGrids64 k).map val).getD (loc k) 0) ≤ valAt 0 (fun k => (exGrids64 k).length) ((([1, 9, 101 / 100, 901 / 100, 17, 25] : List ℚ).map fun v => q64 (v)).map val) (fun k => loc k) + 1 / 10 ^ 15) fun k => ⟨loc k, hl k⟩)
    ![q64 (1 / 3), q64 (5 / 3)] (by decide +kernel) (by unfold InRange; decide +kernel)
  exact ⟨r, h1, le_trans (sub_le_sub_left (by norm_num) _) h2⟩

/-- `C106_above_regular_f64`: samples of `(x² + y²)`. -/
example : ∃ r, multilinearRegularAt (.recursive 8) true ![3, 2] ![q64 0, q64 1] ![q64 1, q64 2] (([1, 9, 2, 10, 5, 13] : List ℚ).map fun v => q64 (v))
      ![q64 (7 / 5), q64 (5 / 3)] = .ok r ∧ squares (fun k => val (![q64 (7 / 5), q64 (5 / 3)] k)) - 1 / 10 ^ 11 ≤ val r := by
  obtain ⟨r, h1, -, h2⟩ := C106_above_regular_f64 (.recursive 8) (show 0 < 2 ∧ 2 ≤ 8 by decide) true 2
    (by norm_num) (by norm_num) ![3, 2] ![q64 0, q64 1] ![q64 1, q64 2] (([1, 9, 2, 10, 5, 13] : List ℚ).map fun v => q64 (v))
    (valid_of_check (by decide +kernel)) (by decide +kernel) (by decide +kernel) (by decide +kernel)
    (by decide +kernel) 25 (by norm_num) (by decide +kernel) 0 squares
    (fun k y _ => squares_convex (fun k => Set.Icc (val (![q64 0, q64 1] k)) (val (![q64 0, q64 1] k) +
        val (![q64 1, q64 2] k) * ((![3, 2] k - 1 : Nat) : ℚ))) (fun _ => convex_Icc _ _) k y)
    (fun loc => squares fun k => val (![q64 0, q64 1] k) + val (![q64 1, q64 2] k) * (loc k : ℚ))
    (samples_of_check (by decide +kernel)) (fun _ _ => by simp)
    ![q64 (7 / 5), q64 (5 / 3)] (by decide +kernel) (by unfold InRange; decide +kernel)
  exact ⟨r, h1, le_trans (sub_le_sub_left (by norm_num) _) h2⟩

/-- `C106_below_rectilinear_f64`: rounded samples of `-(x² + y²)` at rounded nodes. -/
example : ∃ r, multilinearRectilinearAt .flat false exGrids64 (([1, 9, 101 / 100, 901 / 100, 17, 25] : List ℚ).map fun v => q64 (-v))
      ![q64 (1 / 3), q64 (5 / 3)] = .ok r ∧ val r ≤ -squares (fun k => val (![q64 (1 / 3), q64 (5 / 3)] k)) + 1 / 10 ^ 12 := by
  obtain ⟨r, h1, -, h2⟩ := C106_below_rectilinear_f64 .flat (show 0 < 2 by decide) (by norm_num) false
    exGrids64 (([1, 9, 101 / 100, 901 / 100, 17, 25] : List ℚ).map fun v => q64 (-v)) (valid_of_check (by decide +kernel)) (by decide +kernel) 25 (by norm_num)
    (by decide +kernel) (1 / 10 ^ 15) (fun x => -squares x)
    (fun k y _ => neg_squares_concave (fun k => Set.Icc (((exGrids64 k).map val).getD 0 0)
        (((exGrids64 k).map val).getD ((exGrids64 k).length - 1) 0)) (fun _ => convex_Icc _ _) k y)
    (valAt 0 (fun k => (exGrids64 k).length) ((([1, 9, 101 / 100, 901 / 100, 17, 25] : List ℚ).map fun v => q64 (-v)).map val)) (samples_valAt _ _ _ (by decide +kernel))
    (fun loc hl => (by decide +kernel : ∀ loc : (k : Fin 2) → Fin (exGrids64 k).length, valAt 0 (fun k => (exGrids64 k).length) ((([1, 9, 101 / 100, 901 / 100, 17, 25] : List ℚ).map fun v => q64 (-v)).map val) (fun k => loc k) ≤ -squares (fun k => ((exGrids64 k).map val).getD (loc k) 0) + 1 / 10 ^ 15) fun k => ⟨loc k, hl k⟩)
    ![q64 (1 / 3), q64 (5 / 3)] (by decide +kernel) (by unfold InRange; decide +kernel)
  exact ⟨r, h1, le_trans h2 (add_le_add_right (by norm_num) _)⟩

/-- `C106_below_regular_f64`: samples of `-(x² + y²)`. -/
example : ∃ r, multilinearRegularAt (.recursive 8) true ![3, 2] ![q64 0, q64 1] ![q64 1, q64 2] (([1, 9, 2, 10, 5, 13] : List ℚ).map fun v => q64 (-v))
      ![q64 (7 / 5), q64 (5 / 3)] = .ok r ∧ val r ≤ -squares (fun k => val (![q64 (7 / 5), q64 (5 / 3)] k)) + 1 / 10 ^ 11 := by
  obtain ⟨r, h1, -, h2⟩ := C106_below_regular_f64 (.recursive 8) (show 0 < 2 ∧ 2 ≤ 8 by decide) true 2
    (by norm_num) (by norm_num) ![3, 2] ![q64 0, q64 1] ![q64 1, q64 2] (([1, 9, 2, 10, 5, 13] : List ℚ).map fun v => q64 (-v))
    (valid_of_check (by decide +kernel)) (by decide +kernel) (by decide +kernel) (by decide +kernel)
    (by decide +kernel) 25 (by norm_num) (by decide +kernel) 0 (fun x => -squares x)
    (fun k y _ => neg_squares_concave (fun k => Set.Icc (val (![q64 0, q64 1] k)) (val (![q64 0, q64 1] k) +
        val (![q64 1, q64 2] k) * ((![3, 2] k - 1 : Nat) : ℚ))) (fun _ => convex_Icc _ _) k y)
    (fun loc => -squares fun k => val (![q64 0, q64 1] k) + val (![q64 1, q64 2] k) * (loc k : ℚ))
    (samples_of_check (by decide +kernel)) (fun _ _ => by simp)
    ![q64 (7 / 5), q64 (5 / 3)] (by decide +kernel) (by unfold InRange; decide +kernel)
  exact ⟨r, h1, le_trans h2 (add_le_add_right (by norm_num) _)⟩

/-- `C106_above_rectilinear_f32`: rounded samples of `(x² + y²)` at rounded nodes. -/
example : ∃ r, multilinearRectilinearAt .flat false exGrids32 (([1, 9, 101 / 100, 901 / 100, 17, 25] : List ℚ).map fun v => q32 (v))
      ![q32 (1 / 3), q32 (5 / 3)] = .ok r ∧ squares (fun k => val (![q32 (1 / 3), q32 (5 / 3)] k)) - 1 / 10 ^ 3 ≤ val r := by
  obtain ⟨r, h1, -, h2⟩ := C106_above_rectilinear_f32 .flat (show 0 < 2 by decide) (by norm_num) false
    exGrids32 (([1, 9, 101 / 100, 901 / 100, 17, 25] : List ℚ).map fun v => q32 (v)) (valid_of_check (by decide +kernel)) (by decide +kernel) 25 (by norm_num)
    (by decide +kernel) (1 / 10 ^ 6) squares
    (fun k y _ => squares_convex (fun k => Set.Icc (((exGrids32 k).map val).getD 0 0)
        (((exGrids32 k).map val).getD ((exGrids32 k).length - 1) 0)) (fun _ => convex_Icc _ _) k y)
    (valAt 0 (fun k => (exGrids32 k).length) ((([1, 9, 101 / 100, 901 / 100, 17, 25] : List ℚ).map fun v => q32 (v)).map val)) (samples_valAt _ _ _ (by decide +kernel))
    (fun loc hl => (by decide +kernel : ∀ loc : (k : Fin 2) → Fin (exGrids32 k).length, squares (fun k => ((exGrids32 k).map val).getD (loc k) 0) ≤ valAt 0 (fun k => (exGrids32 k).length) ((([1, 9, 101 / 100, 901 / 100, 17, 25] : List ℚ).map fun v => q32 (v)).map val) (fun k => loc k) + 1 / 10 ^ 6) fun k => ⟨loc k, hl k⟩)
    ![q32 (1 / 3), q32 (5 / 3)] (by decide +kernel) (by unfold InRange; decide +kernel)
  exact ⟨r, h1, le_trans (sub_le_sub_left (by norm_num) _) h2⟩

/-- `C106_above_regular_f32`: samples of `(x² + y²)`. -/
example : ∃ r, multilinearRegularAt (.recursive 8) true ![3, 2] ![q32 0, q32 1] ![q32 1, q32 2] (([1, 9, 2, 10, 5, 13] : List ℚ).map fun v => q32 (v))
      ![q32 (7 / 5), q32 (5 / 3)] = .ok r ∧ squares (fun k => val (![q32 (7 / 5), q32 (5 / 3)] k)) - 1 / 10 ≤ val r := by
  obtain ⟨r, h1, -, h2⟩ := C106_above_regular_f32 (.recursive 8) (show 0 < 2 ∧ 2 ≤ 8 by decide) true 2
    (by norm_num) (by norm_num) ![3, 2] ![q32 0, q32 1] ![q32 1, q32 2] (([1, 9, 2, 10, 5, 13] : List ℚ).map fun v => q32 (v))
    (valid_of_check (by decide +kernel)) (by decide +kernel) (by decide +kernel) (by decide +kernel)
    (by decide +kernel) 25 (by norm_num) (by decide +kernel) 0 squares
    (fun k y _ => squares_convex (fun k => Set.Icc (val (![q32 0, q32 1] k)) (val (![q32 0, q32 1] k) +
        val (![q32 1, q32 2] k) * ((![3, 2] k - 1 : Nat) : ℚ))) (fun _ => convex_Icc _ _) k y)
    (fun loc => squares fun k => val (![q32 0, q32 1] k) + val (![q32 1, q32 2] k) * (loc k : ℚ))
    (samples_of_check (by decide +kernel)) (fun _ _ => by simp)
    ![q32 (7 / 5), q32 (5 / 3)] (by decide +kernel) (by unfold InRange; decide +kernel)
  exact ⟨r, h1, le_trans (sub_le_sub_left (by norm_num) _) h2⟩

/-- `C106_below_rectilinear_f32`: rounded samples of `-(x² + y²)` at rounded nodes. -/
example : ∃ r, multilinearRectilinearAt .flat false exGrids32 (([1, 9, 101 / 100, 901 / 100, 17, 25] : List ℚ).map fun v => q32 (-v))
      ![q32 (1 / 3), q32 (5 / 3)] = .ok r ∧ val r ≤ -squares (fun k => val (![q32 (1 / 3), q32 (5 / 3)] k)) + 1 / 10 ^ 3 := by
  obtain ⟨r, h1, -, h2⟩ := C106_below_rectilinear_f32 .flat (show 0 < 2 by decide) (by norm_num) false
    exGrids32 (([1, 9, 101 / 100, 901 / 100, 17, 25] : List ℚ).map fun v => q32 (-v)) (valid_of_check (by decide +kernel)) (by decide +kernel) 25 (by norm_num)
    (by decide +kernel) (1 / 10 ^ 6) (fun x => -squares x)
    (fun k y _ => neg_squares_concave (fun k => Set.Icc (((exGrids32 k).map val).getD 0 0)
        (((exGrids32 k).map val).getD ((exGrids32 k).length - 1) 0)) (fun _ => convex_Icc _ _) k y)
    (valAt 0 (fun k => (exGrids32 k).length) ((([1, 9, 101 / 100, 901 / 100, 17, 25] : List ℚ).map fun v => q32 (-v)).map val)) (samples_valAt _ _ _ (by decide +kernel))
    (fun loc hl => (by decide +kernel : ∀ loc : (k : Fin 2) → Fin (exGrids32 k).length, valAt 0 (fun k => (exGrids32 k).length) ((([1, 9, 101 / 100, 901 / 100, 17, 25] : List ℚ).map fun v => q32 (-v)).map val) (fun k => loc k) ≤ -squares (fun k => ((exGrids32 k).map val).getD (loc k) 0) + 1 / 10 ^ 6) fun k => ⟨loc k, hl k⟩)
    ![q32 (1 / 3), q32 (5 / 3)] (by decide +kernel) (by unfold InRange; decide +kernel)
  exact ⟨r, h1, le_trans h2 (add_le_add_right (by norm_num) _)⟩

/-- `C106_below_regular_f32`: samples of `-(x² + y²)`. -/
example : ∃ r, multilinearRegularAt (.recursive 8) true ![3, 2] ![q32 0, q32 1] ![q32 1, q32 2] (([1, 9, 2, 10, 5, 13] : List ℚ).map fun v => q32 (-v))
      ![q32 (7 / 5), q32 (5 / 3)] = .ok r ∧ val r ≤ -squares (fun k => val (![q32 (7 / 5), q32 (5 / 3)] k)) + 1 / 10 := by
  obtain ⟨r, h1, -, h2⟩ := C106_below_regular_f32 (.recursive 8) (show 0 < 2 ∧ 2 ≤ 8 by decide) true 2
    (by norm_num) (by norm_num) ![3, 2] ![q32 0, q32 1] ![q32 1, q32 2] (([1, 9, 2, 10, 5, 13] : List ℚ).map fun v => q32 (-v))
    (valid_of_check (by decide +kernel)) (by decide +kernel) (by decide +kernel) (by decide +kernel)
    (by decide +kernel) 25 (by norm_num) (by decide +kernel) 0 (fun x => -squares x)
    (fun k y _ => neg_squares_concave (fun k => Set.Icc (val (![q32 0, q32 1] k)) (val (![q32 0, q32 1] k) +
        val (![q32 1, q32 2] k) * ((![3, 2] k - 1 : Nat) : ℚ))) (fun _ => convex_Icc _ _) k y)
    (fun loc => -squares fun k => val (![q32 0, q32 1] k) + val (![q32 1, q32 2] k) * (loc k : ℚ))
    (samples_of_check (by decide +kernel)) (fun _ _ => by simp)
    ![q32 (7 / 5), q32 (5 / 3)] (by decide +kernel) (by unfold InRange; decide +kernel)
  exact ⟨r, h1, le_trans h2 (add_le_add_right (by norm_num) _)⟩

end

end Interpn
