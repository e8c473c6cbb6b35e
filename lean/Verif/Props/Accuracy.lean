import Verif.Lemmas.Accuracy
import Verif.Lemmas.Taylor
import Verif.Lemmas.ExampleGrids
import Verif.Props.MulticubicExact
import Mathlib.Tactic.IntervalCases

/-! C63: overshoot and stability of multicubic interpolation. C64: second-order accuracy of
multilinear interpolation. C65: third-order accuracy of multicubic interpolation. Exact
arithmetic, both grid kinds (`Axes`) and both implementations (`Evaluator`). -/

set_option autoImplicit false
set_option linter.unusedSectionVars false

namespace Interpn

section
variable {K : Type} [Field K] [LinearOrder K] [IsStrictOrderedRing K] [FloorRing K] {N : Nat}

theorem MeshRatio.pos {n : Nat} {p : Nat → K} {ρ : K} (h : MeshRatio n p ρ) (hi : Incr n p)
    (hn : 4 ≤ n) : 0 < ρ := by
  have h1 := hi 0 (by omega)
  have h2 := hi 1 (by omega)
  have h3 := (h 0 (by omega)).1
  simp only [zero_add] at *
  by_contra hc
  have := mul_nonneg (neg_nonneg.2 (not_lt.1 hc)) (sub_pos.2 h2).le
  have e : (1 : Nat) + 1 = 2 := rfl
  rw [e] at this
  linarith

theorem cubicPiece_sub {n : Nat} {p : Nat → K} {x : K} {c : Nat} (hn : 4 ≤ n) (lin : Bool)
    (hc : c + 1 < n) (f f' : Nat → K) : cubicPiece n p (fun i => f i - f' i) lin c x =
      cubicPiece n p f lin c x - cubicPiece n p f' lin c x := by
  have hl := cubicPiece_linear (p := p) (x := x) hn lin hc
  have h1 := hl.add f fun i => -1 * f' i
  have h2 := hl.smul (-1) f'
  rw [h2] at h1
  have e : (fun i => f i - f' i) = fun i => f i + -1 * f' i := funext fun i => by ring
  rw [e, h1]; ring

theorem linPiece_sub {p : Nat → K} {x : K} {c : Nat} (f f' : Nat → K) :
    linPiece p (fun i => f i - f' i) c x = linPiece p f c x - linPiece p f' c x := by
  unfold linPiece; ring

/-- One axis amplifies differences at the nodes of the footprint by at most `1 + ρ²/(2 (1 + ρ))`. -/
theorem cubicPiece_lip {n : Nat} {p : Nat → K} {x : K} {c : Nat} (hi : Incr n p) (hn : 4 ≤ n)
    (lin : Bool) (hc : InCell n p x c) (hx : InRange n p x) {ρ : K} (hρ : MeshRatio n p ρ)
    {f f' : Nat → K} {ε : K} (h : ∀ j, j < n ∧ c ≤ j + 1 ∧ j ≤ c + 2 → |f j - f' j| ≤ ε) :
    |cubicPiece n p f lin c x - cubicPiece n p f' lin c x| ≤
      (1 + ρ ^ 2 / (2 * (1 + ρ))) * ε := by
  rw [← cubicPiece_sub hn lin hc.1]
  have hρ0 := hρ.pos hi hn
  have := cubicPiece_bound hi hn lin hc hx hρ (f := fun i => f i - f' i) (Bi := ε) (Bo := ε)
    (h c ⟨by have := hc.1; omega, by omega, by omega⟩) (h (c + 1) ⟨hc.1, by omega, by omega⟩)
    (fun j h1 h2 h3 => h j ⟨h1, h2, h3⟩)
  refine this.trans (le_of_eq ?_)
  field_simp
  ring

/-- Each axis contributes a factor to the deviation from a constant. -/
theorem axisByAxis_dev {Λ m : K} (hΛ : 0 ≤ Λ) : ∀ {N : Nat} (S : Fin N → Nat → Prop)
    (op : Fin N → (Nat → K) → K) (g : (Fin N → Nat) → K) (B : K)
    (_ : ∀ k f B, 0 ≤ B → (∀ i, S k i → |f i - m| ≤ B) → |op k f - m| ≤ Λ * B) (_ : 0 ≤ B)
    (_ : ∀ loc : Fin N → Nat, (∀ k, S k (loc k)) → |g loc - m| ≤ B),
    |axisByAxis op g - m| ≤ Λ ^ N * B
  | 0, S, op, g, B, _, _, hg => by simpa [axisByAxis] using hg _ fun k => k.elim0
  | N + 1, S, op, g, B, hop, hB, hg => by
    rw [axisByAxis, pow_succ', mul_assoc]
    refine hop _ _ _ (mul_nonneg (pow_nonneg hΛ _) hB) fun i hi => ?_
    refine axisByAxis_dev hΛ (fun k : Fin N => S k.castSucc) _ _ B (fun k => hop k.castSucc) hB
      fun loc hl => hg _ fun k => ?_
    refine Fin.lastCases ?_ (fun j => ?_) k
    · simpa using hi
    · simpa using hl j

/-- C63: if adjacent cells differ in width by a factor of at most `ρ` on every axis, and the
values at the nodes of the footprint (the cell and one node to each side) lie between `lo` and
`hi`, an in-grid result deviates from their midpoint by at most `(1 + ρ²/(2 (1 + ρ))) ^ N` times
half the distance. -/
theorem C63_overshoot (e : Evaluator) (he : e.Fits N) (fma : Bool) (G : Axes K N)
    (vals : List K) (lin : Bool) (hG : G.Valid 4 vals) (g : (Fin N → Nat) → K)
    (hg : Samples G.size vals g) (ρ : K) (hρ : ∀ k, MeshRatio (G.size k) (G.node k) ρ)
    (x : Fin N → K) (hx : G.RepresentableCubic x)
    (hin : ∀ k, InRange (G.size k) (G.node k) (x k)) (c : Fin N → Nat)
    (hc : ∀ k, InCell (G.size k) (G.node k) (x k) (c k)) (lo hi : K)
    (hb : ∀ loc : Fin N → Nat, (∀ k, loc k < G.size k ∧ c k ≤ loc k + 1 ∧ loc k ≤ c k + 2) →
      lo ≤ g loc ∧ g loc ≤ hi) :
    ∃ y, multicubicAt e fma G vals lin x = .ok y ∧
      |y - (lo + hi) / 2| ≤ (1 + ρ ^ 2 / (2 * (1 + ρ))) ^ N * ((hi - lo) / 2) := by
  refine ⟨_, multicubicAt_eq e he fma G vals lin hG g hg x hx c hc, ?_⟩
  have hρ0 : 0 < ρ := (hρ ⟨0, he.pos⟩).pos (hG.incr _) (hG.big _)
  have hlohi : lo ≤ hi := by
    have := hb c fun k => ⟨by have := (hc k).1; omega, by omega, by omega⟩
    exact this.1.trans this.2
  refine axisByAxis_dev (m := (lo + hi) / 2) (by positivity)
    (fun k i => i < G.size k ∧ c k ≤ i + 1 ∧ i ≤ c k + 2) _ _ _ ?_ (by linarith) ?_
  · intro k f B _ hf
    have hconst : cubicPiece (G.size k) (G.node k) (fun _ => (lo + hi) / 2) lin (c k) (x k) =
        (lo + hi) / 2 :=
      cubicPiece_affine (hG.incr k) (hG.big k) (hc k).1 lin (φ := fun _ => (lo + hi) / 2)
        ⟨(lo + hi) / 2, 0, fun z => by ring⟩
    have := cubicPiece_lip (hG.incr k) (hG.big k) lin (hc k) (hin k) (hρ k) hf
    rwa [hconst] at this
  · intro loc hl
    obtain ⟨h1, h2⟩ := hb loc hl
    rw [abs_le]
    constructor <;> linarith

/-- C63: changing every value by at most `ε` changes an in-grid result by at most
`(1 + ρ²/(2 (1 + ρ))) ^ N * ε`. -/
theorem C63_stability (e : Evaluator) (he : e.Fits N) (fma : Bool) (G : Axes K N)
    (vals vals' : List K) (lin : Bool) (hG : G.Valid 4 vals) (hG' : G.Valid 4 vals') (ε : K)
    (hv : ∀ i (h : i < vals.length) (h' : i < vals'.length), |vals[i] - vals'[i]| ≤ ε)
    (ρ : K) (hρ : ∀ k, MeshRatio (G.size k) (G.node k) ρ)
    (x : Fin N → K) (hx : G.RepresentableCubic x)
    (hin : ∀ k, InRange (G.size k) (G.node k) (x k)) :
    ∃ y y', multicubicAt e fma G vals lin x = .ok y ∧ multicubicAt e fma G vals' lin x = .ok y' ∧
      |y - y'| ≤ (1 + ρ ^ 2 / (2 * (1 + ρ))) ^ N * ε := by
  obtain ⟨c, hc⟩ := hG.cells (by omega) x
  have hρ0 : 0 < ρ := (hρ ⟨0, he.pos⟩).pos (hG.incr _) (hG.big _)
  refine ⟨_, _, multicubicAt_eq e he fma G vals lin hG _ (samples_valAt 0 _ _ hG.len) x hx c hc,
    multicubicAt_eq e he fma G vals' lin hG' _ (samples_valAt 0 _ _ hG'.len) x hx c hc, ?_⟩
  have key : ∀ loc : Fin N → Nat, (∀ k, loc k < G.size k) →
      |valAt 0 G.size vals loc - valAt 0 G.size vals' loc| ≤ ε := by
    intro loc hl
    have h1 := cIndex_lt G.size loc hl
    rw [← hG.len] at h1
    have h2 : cIndex G.size loc < vals'.length := by rw [hG'.len, ← hG.len]; exact h1
    have := hv _ h1 h2
    simp only [valAt]
    rwa [List.getD_eq_getElem _ _ h1, List.getD_eq_getElem _ _ h2]
  have hε : 0 ≤ ε := (abs_nonneg _).trans
    (key c fun k => by have := (hc k).1; omega)
  have hsub := axisByAxis_lincomb (n := G.size)
    (fun k f => cubicPiece (G.size k) (G.node k) f lin (c k) (x k))
    (fun k => cubicPiece_linear (hG.big k) lin (hc k).1)
    (valAt 0 G.size vals) (valAt 0 G.size vals') 1 (-1)
  rw [one_mul, neg_one_mul, ← sub_eq_add_neg] at hsub
  rw [← hsub]
  have := axisByAxis_dev (m := (0 : K)) (Λ := 1 + ρ ^ 2 / (2 * (1 + ρ))) (by positivity)
    (fun k i => i < G.size k)
    (fun k f => cubicPiece (G.size k) (G.node k) f lin (c k) (x k))
    (fun loc => 1 * valAt 0 G.size vals loc + -1 * valAt 0 G.size vals' loc) ε
    (fun k f B _ hf => by
      have h0 : cubicPiece (G.size k) (G.node k) (fun _ => (0 : K)) lin (c k) (x k) = 0 :=
        (cubicPiece_linear (hG.big k) lin (hc k).1).zero
      have := cubicPiece_lip (f' := fun _ => 0) (hG.incr k) (hG.big k) lin (hc k) (hin k) (hρ k)
        (fun j hj => hf j hj.1)
      rwa [h0] at this) hε (fun loc hl => by
      rw [sub_zero, one_mul, neg_one_mul, ← sub_eq_add_neg]
      exact key loc hl)
  rwa [sub_zero] at this

/-- Cells of a regular grid have the same width. -/
theorem meshRatio_regular (dims : Fin N → Nat) (starts steps : Fin N → K) (k : Fin N) :
    MeshRatio ((Axes.regular dims starts steps).size k) ((Axes.regular dims starts steps).node k)
      1 := by
  intro i _
  simp only [Axes.node]
  push_cast
  constructor <;> exact le_of_eq (by ring)

/-- C63 on regular grids: the amplification is `5/4` per axis. -/
theorem C63_overshoot_regular (e : Evaluator) (he : e.Fits N) (fma : Bool) (dims : Fin N → Nat)
    (starts steps : Fin N → K) (vals : List K) (lin : Bool)
    (hG : (Axes.regular dims starts steps).Valid 4 vals)
    (x : Fin N → K) (hx : (Axes.regular dims starts steps).RepresentableCubic x)
    (hin : ∀ k, InRange (dims k) (fun i => starts k + steps k * i) (x k)) (lo hi : K)
    (hb : ∀ v ∈ vals, lo ≤ v ∧ v ≤ hi) :
    ∃ y, multicubicAt e fma (.regular dims starts steps) vals lin x = .ok y ∧
      |y - (lo + hi) / 2| ≤ (5 / 4) ^ N * ((hi - lo) / 2) := by
  obtain ⟨c, hc⟩ := hG.cells (by omega) x
  have := C63_overshoot e he fma _ vals lin hG _ (samples_valAt 0 _ _ hG.len) 1
    (meshRatio_regular dims starts steps) x hx hin c hc lo hi (fun loc hl => by
      have h1 := cIndex_lt _ loc fun k => (hl k).1
      rw [← hG.len] at h1
      simp only [valAt]
      rw [List.getD_eq_getElem _ _ h1]
      exact hb _ (List.getElem_mem h1))
  have e5 : (1 : K) + 1 ^ 2 / (2 * (1 + 1)) = 5 / 4 := by norm_num
  rwa [e5] at this

end

section
variable {N : Nat}

/-- The error of linear interpolation on one axis. -/
theorem linPiece_error {n : Nat} {p : Nat → ℝ} {x : ℝ} {c : Nat} (hi : Incr n p)
    (hc : InCell n p x c) (hx : InRange n p x) {φ : ℝ → ℝ} {M : ℝ}
    (hφ : SecondDerivBounded φ (p 0) (p (n - 1)) M) :
    |linPiece p (fun i => φ (p i)) c x - φ x| ≤ M / 8 * (p (c + 1) - p c) ^ 2 := by
  have hnode : ∀ i, i < n → InRange n p (p i) := fun i h =>
    ⟨hi.le (by omega) h, hi.le (by omega) (by omega)⟩
  obtain ⟨u, hu⟩ := hφ.remainder hx
  obtain ⟨ht0, ht1⟩ := weight_mem hi hc hx
  have hw : 0 < p (c + 1) - p c := sub_pos.2 (hi _ hc.1)
  have h0 := hu _ (hnode c (by have := hc.1; omega))
  have h1 := hu _ (hnode (c + 1) hc.1)
  have hM : 0 ≤ M := by
    obtain ⟨_, _, h⟩ := hφ
    exact (abs_nonneg _).trans (h _ hx).2.2
  rw [linPiece_weights]
  have ex : x = p c + (x - p c) / (p (c + 1) - p c) *
      (p (c + 1) - p c) := by
    rw [div_mul_cancel₀ _ hw.ne']; ring
  generalize (x - p c) / (p (c + 1) - p c) = t at *
  generalize φ x = Fx at *
  generalize φ (p c) = Fa at *
  generalize φ (p (c + 1)) = Fb at *
  generalize p c = a at *
  generalize hb : p (c + 1) = b at *
  rw [ex] at h0 h1
  have e : (1 - t) * Fa + t * Fb - Fx =
      (1 - t) * (Fa - (Fx + u * (a - (a + t * (b - a))))) +
        t * (Fb - (Fx + u * (b - (a + t * (b - a))))) := by ring
  rw [e]
  have h1t : 0 ≤ 1 - t := by linarith
  calc _ ≤ (1 - t) * (M / 2 * (a - (a + t * (b - a))) ^ 2) +
        t * (M / 2 * (b - (a + t * (b - a))) ^ 2) := by
          refine (abs_add_le _ _).trans ?_
          rw [abs_mul, abs_mul, abs_of_nonneg h1t, abs_of_nonneg ht0]
          exact add_le_add (mul_le_mul_of_nonneg_left h0 h1t) (mul_le_mul_of_nonneg_left h1 ht0)
    _ = t * (1 - t) * (M / 2 * (b - a) ^ 2) := by ring
    _ ≤ 1 / 4 * (M / 2 * (b - a) ^ 2) :=
          mul_le_mul_of_nonneg_right quarter (by positivity)
    _ = _ := by ring

/-- The error of cubic interpolation on one axis. -/
theorem cubicPiece_error {n : Nat} {p : Nat → ℝ} {x : ℝ} {c : Nat} (hi : Incr n p) (hn : 4 ≤ n)
    (lin : Bool) (hc : InCell n p x c) (hx : InRange n p x) {ρ : ℝ} (hρ : MeshRatio n p ρ) {h : ℝ}
    (hh : ∀ i, i + 1 < n → p (i + 1) - p i ≤ h) {φ : ℝ → ℝ} {M : ℝ}
    (hφ : ThirdDerivBounded φ (p 0) (p (n - 1)) M) :
    |cubicPiece n p (fun i => φ (p i)) lin c x - φ x| ≤
      (1 + 9 * (ρ ^ 2 / (4 * (1 + ρ)))) / 6 * (M * h ^ 3) := by
  have hnode : ∀ i, i < n → InRange n p (p i) := fun i h =>
    ⟨hi.le (by omega) h, hi.le (by omega) (by omega)⟩
  obtain ⟨u, v, hu⟩ := hφ.remainder hx
  have hM : 0 ≤ M := by
    obtain ⟨_, _, _, h⟩ := hφ
    exact (abs_nonneg _).trans (h _ hx).2.2.2
  have hh0 : 0 ≤ h :=
    (sub_pos.2 (hi _ hc.1)).le.trans (hh c hc.1)
  have hq := cubicPiece_quadratic hi hn hc.1 lin (fun _ => hx)
    (φ := fun z => φ x + u * (z - x) + v * (z - x) ^ 2)
    ⟨φ x - u * x + v * x ^ 2, u - 2 * v * x, v,
      fun z => by ring⟩
  simp only [sub_self, mul_zero, add_zero, ne_eq, OfNat.ofNat_ne_zero, not_false_eq_true,
    zero_pow] at hq
  have hsub := cubicPiece_sub (p := p) (x := x) hn lin hc.1
    (fun i => φ (p i))
    (fun i => φ x + u * (p i - x) +
      v * (p i - x) ^ 2)
  rw [hq] at hsub
  rw [← hsub]
  obtain ⟨ha, hb⟩ := inRange_of_inCell hc hx
  have hcw := hh c hc.1
  have hclose : ∀ i, i < n → |p i - x| ≤ h →
      |φ (p i) - (φ x +
        u * (p i - x) + v * (p i - x) ^ 2)| ≤ M / 6 * h ^ 3 := by
    intro i hi hd
    refine (hu _ (hnode i hi)).trans (mul_le_mul_of_nonneg_left ?_ (by positivity))
    exact pow_le_pow_left₀ (abs_nonneg _) hd 3
  have hfar : ∀ i, i < n → |p i - x| ≤ 2 * h →
      |φ (p i) - (φ x +
        u * (p i - x) + v * (p i - x) ^ 2)| ≤ M / 6 * (2 * h) ^ 3 := by
    intro i hi hd
    refine (hu _ (hnode i hi)).trans (mul_le_mul_of_nonneg_left ?_ (by positivity))
    exact pow_le_pow_left₀ (abs_nonneg _) hd 3
  have key := cubicPiece_bound hi hn lin hc hx hρ
    (f := fun i => φ (p i) - (φ x +
        u * (p i - x) + v * (p i - x) ^ 2))
    (hclose c (by have := hc.1; omega) (by rw [abs_le]; constructor <;> linarith))
    (hclose (c + 1) hc.1 (by rw [abs_le]; constructor <;> linarith))
    (fun j hj h1 h2 => hfar j hj (by
      have lower : p c - h ≤ p j := by
        rcases Nat.lt_or_ge j c with h3 | h3
        · obtain ⟨d, hd⟩ : ∃ d, c = d + 1 := ⟨c - 1, by omega⟩
          have : j = d := by omega
          subst this
          rw [hd]
          have hcn := hc.1
          have := hh j (by omega)
          linarith
        · have := hi.le h3 hj
          linarith
      have upper : p j ≤ p (c + 1) + h := by
        rcases Nat.lt_or_ge (c + 1) j with h3 | h3
        · have : j = c + 1 + 1 := by omega
          subst this
          have := hh (c + 1) hj
          linarith
        · have := hi.le h3 hc.1
          linarith
      rw [abs_le]; constructor <;> linarith))
  refine key.trans (le_of_eq ?_)
  ring

/-- C64: if the values sample a function whose second derivative in coordinate `k` is at most
`M k` inside the grid, then inside the grid the error is at most the sum over the axes of
`M k / 8` times the squared cell width. -/
theorem C64_accuracy (e : Evaluator) (he : e.Fits N) (fma : Bool) (G : Axes ℝ N)
    (vals : List ℝ) (hG : G.Valid 2 vals) (F : (Fin N → ℝ) → ℝ) (M : Fin N → ℝ)
    (hF : ∀ k y, (∀ j, InRange (G.size j) (G.node j) (y j)) →
      SecondDerivBounded (fun z => F (Function.update y k z)) (G.node k 0)
        (G.node k (G.size k - 1)) (M k))
    (hg : Samples G.size vals fun loc => F fun k => G.node k (loc k))
    (x : Fin N → ℝ) (hx : G.Representable x)
    (hin : ∀ k, InRange (G.size k) (G.node k) (x k)) (c : Fin N → Nat)
    (hc : ∀ k, InCell (G.size k) (G.node k) (x k) (c k)) :
    ∃ y, multilinearAt e fma G vals x = .ok y ∧
      |y - F x| ≤ ∑ k, M k / 8 * (G.node k (c k + 1) - G.node k (c k)) ^ 2 := by
  refine ⟨_, multilinearAt_eq e he fma G vals hG _ hg x hx c hc, ?_⟩
  have hnode : ∀ k i, i < G.size k → InRange (G.size k) (G.node k) (G.node k i) := fun k i h =>
    ⟨(hG.incr k).le (by omega) h, (hG.incr k).le (by omega) (by omega)⟩
  have key := axisByAxis_error (K := ℝ) le_rfl (fun k i => i < G.size k)
    (fun k => InRange (G.size k) (G.node k))
    (fun k f => linPiece (G.node k) f (c k) (x k)) G.node x F
    (fun k => M k / 8 * (G.node k (c k + 1) - G.node k (c k)) ^ 2) ?_ hnode hin ?_
  · rwa [one_pow, one_mul] at key
  · intro k f f' ε hf
    rw [one_mul, ← linPiece_sub, abs_le]
    exact linPiece_between (hG.incr k) (hc k) (hin k)
      (abs_le.1 (hf _ (by have := (hc k).1; omega))) (abs_le.1 (hf _ (hc k).1))
  · intro k y hy
    exact linPiece_error (hG.incr k) (hc k) (hin k) (hF k y hy)

/-- C65: if the values sample a function whose third derivative in coordinate `k` is at most
`M k` inside the grid, cells on axis `k` are at most `h k` wide and adjacent cells differ in width
by a factor of at most `ρ`, then inside the grid the error is of third order in the cell widths. -/
theorem C65_accuracy (e : Evaluator) (he : e.Fits N) (fma : Bool) (G : Axes ℝ N)
    (vals : List ℝ) (lin : Bool) (hG : G.Valid 4 vals) (F : (Fin N → ℝ) → ℝ) (M h : Fin N → ℝ)
    (hF : ∀ k y, (∀ j, InRange (G.size j) (G.node j) (y j)) →
      ThirdDerivBounded (fun z => F (Function.update y k z)) (G.node k 0)
        (G.node k (G.size k - 1)) (M k))
    (hg : Samples G.size vals fun loc => F fun k => G.node k (loc k))
    (hh : ∀ k i, i + 1 < G.size k → G.node k (i + 1) - G.node k i ≤ h k)
    (ρ : ℝ) (hρ : ∀ k, MeshRatio (G.size k) (G.node k) ρ)
    (x : Fin N → ℝ) (hx : G.RepresentableCubic x)
    (hin : ∀ k, InRange (G.size k) (G.node k) (x k)) :
    ∃ y, multicubicAt e fma G vals lin x = .ok y ∧
      |y - F x| ≤ (1 + ρ ^ 2 / (2 * (1 + ρ))) ^ (N - 1) *
        ∑ k, (1 + 9 * (ρ ^ 2 / (4 * (1 + ρ)))) / 6 * (M k * h k ^ 3) := by
  obtain ⟨c, hc⟩ := hG.cells (by omega) x
  refine ⟨_, multicubicAt_eq e he fma G vals lin hG _ hg x hx c hc, ?_⟩
  have hρ0 : 0 < ρ := (hρ ⟨0, he.pos⟩).pos (hG.incr _) (hG.big _)
  have hnode : ∀ k i, i < G.size k → InRange (G.size k) (G.node k) (G.node k i) := fun k i h =>
    ⟨(hG.incr k).le (by omega) h, (hG.incr k).le (by omega) (by omega)⟩
  refine axisByAxis_error (K := ℝ) (by
      have : 0 ≤ ρ ^ 2 / (2 * (1 + ρ)) := by positivity
      linarith) (fun k i => i < G.size k)
    (fun k => InRange (G.size k) (G.node k))
    (fun k f => cubicPiece (G.size k) (G.node k) f lin (c k) (x k)) G.node x F _ ?_ hnode hin ?_
  · intro k f f' ε hf
    exact cubicPiece_lip (hG.incr k) (hG.big k) lin (hc k) (hin k) (hρ k) fun j hj => hf j hj.1
  · intro k y hy
    exact cubicPiece_error (hG.incr k) (hG.big k) lin (hc k) (hin k) (hρ k) (hh k) (hF k y hy)

/-- C65 on regular grids, with the constants written out. -/
theorem C65_accuracy_regular (e : Evaluator) (he : e.Fits N) (fma : Bool) (dims : Fin N → Nat)
    (starts steps : Fin N → ℝ) (vals : List ℝ) (lin : Bool)
    (hG : (Axes.regular dims starts steps).Valid 4 vals) (F : (Fin N → ℝ) → ℝ) (M : Fin N → ℝ)
    (hF : ∀ k y, (∀ j, InRange (dims j) (fun i => starts j + steps j * i) (y j)) →
      ThirdDerivBounded (fun z => F (Function.update y k z)) (starts k)
        (starts k + steps k * (dims k - 1 : Nat)) (M k))
    (hg : Samples dims vals fun loc => F fun k => starts k + steps k * loc k)
    (x : Fin N → ℝ) (hx : (Axes.regular dims starts steps).RepresentableCubic x)
    (hin : ∀ k, InRange (dims k) (fun i => starts k + steps k * i) (x k)) :
    ∃ y, multicubicAt e fma (.regular dims starts steps) vals lin x = .ok y ∧
      |y - F x| ≤ (5 / 4) ^ (N - 1) * ∑ k, 17 / 48 * (M k * steps k ^ 3) := by
  have := C65_accuracy e he fma _ vals lin hG F M steps (fun k y hy => by
      have := hF k y hy
      simpa [Axes.node, Axes.size] using this) hg (fun k i _ => by
      simp only [Axes.node]; push_cast; exact le_of_eq (by ring)) 1
    (meshRatio_regular dims starts steps) x hx hin
  have e5 : (1 : ℝ) + 1 ^ 2 / (2 * (1 + 1)) = 5 / 4 := by norm_num
  have e6 : ((1 : ℝ) + 9 * (1 ^ 2 / (4 * (1 + 1)))) / 6 = 17 / 48 := by norm_num
  rwa [e5, e6] at this

end

section Examples

theorem meshRatio_of_check {n : Nat} {p : Nat → ℚ} {ρ : ℚ}
    (h : ∀ i < n - 2, p (i + 1) - p i ≤ ρ * (p (i + 2) - p (i + 1)) ∧
      p (i + 2) - p (i + 1) ≤ ρ * (p (i + 1) - p i)) : MeshRatio n p ρ :=
  fun i hi => h i (by omega)

/-- C63 in one dimension, where the bound `5/4` is attained: values in `[-1, 1]`, result `5/4`. -/
example :
    let G : Axes ℚ 1 := .regular ![4] ![0] ![1]
    let vals : List ℚ := [-1, 1, 1, -1]
    G.Valid 4 vals ∧ (∀ v ∈ vals, -1 ≤ v ∧ v ≤ 1) ∧ G.RepresentableCubic ![3/2] ∧
      (∀ k, InRange (G.size k) (G.node k) (![3/2] k)) ∧
      multicubicAt .flat false G vals true ![3/2] = .ok (5/4) := by
  intro G vals
  refine ⟨valid_of_check ?_, ?_⟩ <;> decide +kernel

/-- C63 on an uneven 5×4 grid: adjacent cells differ by a factor of at most 4. -/
example :
    let vals : List ℚ := [0, 0, 0, 0, 0, 0, 1, 1, 0, 0, 1, 1, 0, 0, 0, 0, 0, 0, 0, 0]
    exRectilinear4.Valid 4 vals ∧
      (∀ k, MeshRatio (exRectilinear4.size k) (exRectilinear4.node k) 4) ∧
      exRectilinear4.RepresentableCubic ![2, 5] ∧
      (∀ k, InRange (exRectilinear4.size k) (exRectilinear4.node k) (![2, 5] k)) ∧
      (∀ k, InCell (exRectilinear4.size k) (exRectilinear4.node k) (![2, 5] k) (![1, 2] k)) ∧
      multicubicAt .flat false exRectilinear4 vals true ![2, 5] = .ok (12/5) := by
  refine ⟨valid_of_check ?_, fun k => meshRatio_of_check ?_, ?_⟩
  · decide +kernel
  · revert k; decide +kernel
  · refine ⟨by decide +kernel, by decide +kernel, by decide +kernel, by decide +kernel⟩

/-- C64 for `x² y` on a 3×2 grid: the hypotheses hold with bounds 6 and 0. -/
example :
    let G : Axes ℝ 2 := .rectilinear ![[0, 1, 4], [1, 3]]
    let F : (Fin 2 → ℝ) → ℝ := fun x => x 0 ^ 2 * x 1
    let vals : List ℝ := [0, 0, 1, 3, 16, 48]
    G.Valid 2 vals ∧ Samples G.size vals (fun loc => F fun k => G.node k (loc k)) ∧
      (∀ k y, (∀ j, InRange (G.size j) (G.node j) (y j)) →
        SecondDerivBounded (fun z => F (Function.update y k z)) (G.node k 0)
          (G.node k (G.size k - 1)) (![6, 0] k)) ∧
      (∀ k, InRange (G.size k) (G.node k) (![2, 2] k)) ∧ G.Representable ![2, 2] := by
  intro G F vals
  refine ⟨⟨by unfold IsSlice; simp [vals], by simp [G, Axes.size, vals], ?_, ?_⟩,
    ?_, ?_, ?_, trivial⟩
  · intro k; fin_cases k <;> simp [G, Axes.size]
  · intro k i hi
    fin_cases k <;> simp [G, Axes.size, Axes.node] at hi ⊢
    · have : i < 2 := by omega
      interval_cases i <;> norm_num
    · subst hi; norm_num
  · intro loc hl
    have h0 := hl 0
    have h1 := hl 1
    simp [G, Axes.size] at h0 h1
    obtain ⟨a, ha⟩ : ∃ a, loc 0 = a := ⟨_, rfl⟩
    obtain ⟨b, hb⟩ : ∃ b, loc 1 = b := ⟨_, rfl⟩
    have e1 : cIndex G.size loc = a * 2 + b := by
      simp [cIndex, G, Axes.size, ha, hb, Fin.last]
    simp only [e1, F, G, Axes.node, ha, hb]
    rw [ha] at h0
    rw [hb] at h1
    interval_cases a <;> interval_cases b <;> norm_num [vals]
  · intro k y hy
    fin_cases k
    · refine ⟨fun z => 2 * z * y 1, fun _ => 2 * y 1, fun z _ => ⟨?_, ?_, ?_⟩⟩
      · have := ((hasDerivAt_pow 2 z).mul_const (y 1)).hasDerivWithinAt (s := Set.Icc (0 : ℝ) 4)
        refine (this.congr_deriv (by norm_num)).congr_of_eventuallyEq ?_ ?_ <;>
          simp [F, Function.update, Filter.EventuallyEq.refl]
      · have := (((hasDerivAt_id z).const_mul 2).mul_const (y 1)).hasDerivWithinAt (s := Set.Icc (0 : ℝ) 4)
        exact this.congr_deriv (by norm_num)
      · have h := hy 1
        simp [G, InRange, Axes.node, Axes.size] at h
        show |2 * y 1| ≤ 6
        rw [abs_le]; constructor <;> linarith
    · refine ⟨fun z => y 0 ^ 2, fun _ => 0, fun z _ => ⟨?_, ?_, ?_⟩⟩
      · have := ((hasDerivAt_id z).const_mul (y 0 ^ 2)).hasDerivWithinAt (s := Set.Icc (1 : ℝ) 3)
        refine (this.congr_deriv (by norm_num)).congr_of_eventuallyEq ?_ ?_ <;>
          simp [F, Function.update, Filter.EventuallyEq.refl]
      · exact hasDerivWithinAt_const _ _ _
      · simp
  · intro k
    fin_cases k <;> norm_num [G, InRange, Axes.node, Axes.size]

/-- C65 for `x³` on a regular grid of 5 nodes: the third derivative is 6. -/
example :
    let G : Axes ℝ 1 := .regular ![5] ![0] ![1/2]
    let F : (Fin 1 → ℝ) → ℝ := fun x => x 0 ^ 3
    let vals : List ℝ := [0, 1/8, 1, 27/8, 8]
    G.Valid 4 vals ∧ Samples G.size vals (fun loc => F fun k => G.node k (loc k)) ∧
      (∀ k y, (∀ j, InRange (G.size j) (G.node j) (y j)) →
        ThirdDerivBounded (fun z => F (Function.update y k z)) (G.node k 0)
          (G.node k (G.size k - 1)) (![6] k)) ∧
      (∀ k, InRange (G.size k) (G.node k) (![1] k)) ∧ G.RepresentableCubic ![1] := by
  intro G F vals
  refine ⟨⟨by unfold IsSlice; simp [vals], by simp [G, Axes.size, vals], ?_, ?_⟩,
    ?_, ?_, ?_, ?_⟩
  · intro k; fin_cases k; simp [G, Axes.size]
  · intro k i hi; fin_cases k; simp [G, Axes.node]
  · intro loc hl
    have h0 := hl 0
    simp [G, Axes.size] at h0
    obtain ⟨a, ha⟩ : ∃ a, loc 0 = a := ⟨_, rfl⟩
    have e1 : cIndex G.size loc = a := by
      simp [cIndex, G, Axes.size, ha, Fin.last]
    simp only [e1, F, G, Axes.node, ha]
    rw [ha] at h0
    interval_cases a <;> norm_num [vals]
  · intro k y hy
    fin_cases k
    refine ⟨fun z => 3 * z ^ 2, fun z => 6 * z, fun _ => 6, fun z _ => ⟨?_, ?_, ?_, by simp⟩⟩
    · have := (hasDerivAt_pow 3 z).hasDerivWithinAt
        (s := Set.Icc (G.node 0 0) (G.node 0 (G.size 0 - 1)))
      refine (this.congr_deriv (by norm_num)).congr_of_eventuallyEq ?_ ?_ <;>
        simp [F, Function.update, Filter.EventuallyEq.refl]
    · have := ((hasDerivAt_pow 2 z).const_mul 3).hasDerivWithinAt
        (s := Set.Icc (G.node 0 0) (G.node 0 (G.size 0 - 1)))
      exact this.congr_deriv (by norm_num; ring)
    · have := ((hasDerivAt_id z).const_mul 6).hasDerivWithinAt
        (s := Set.Icc (G.node 0 0) (G.node 0 (G.size 0 - 1)))
      exact this.congr_deriv (by norm_num)
  · intro k
    fin_cases k; norm_num [G, InRange, Axes.node, Axes.size]
  · intro k
    fin_cases k
    norm_num [isizeMin, isizeMax]

end Examples

end Interpn
