import Verif.Props.Shape

/-! C75: the multilinear interpolant varies no faster than the data. Exact arithmetic, both grid
kinds (`Axes`) and both implementations (`Evaluator`). -/

set_option autoImplicit false
set_option linter.unusedSectionVars false

namespace Interpn

section
variable {K : Type} [Field K] [LinearOrder K] [IsStrictOrderedRing K] [FloorRing K] {N : Nat}

/-- Along axis `j` the slopes between adjacent nodes are at most `S` in absolute value. -/
def SlopesBounded (G : Axes K N) (g : (Fin N → Nat) → K) (j : Fin N) (S : K) : Prop :=
  ∀ loc : Fin N → Nat, (∀ k, loc k < G.size k) → loc j + 1 < G.size j →
    |g (Function.update loc j (loc j + 1)) - g loc| ≤
      S * (G.node j (loc j + 1) - G.node j (loc j))

theorem update_cells {n : Fin N → Nat} {p : Fin N → Nat → K} {x : Fin N → K} {z : K} {j : Fin N}
    {c : Fin N → Nat} {d : Nat} (hc : ∀ k, InCell (n k) (p k) (x k) (c k))
    (hd : InCell (n j) (p j) z d) (k : Fin N) :
    InCell (n k) (p k) (Function.update x j z k) (Function.update c j d k) := by
  by_cases hk : k = j
  · subst hk; simpa using hd
  · simpa [hk] using hc k

/-- One direction: adding `s` times coordinate `j` to the data adds `s x_j` to the result. -/
theorem lipschitz_half {n : Fin N → Nat} {p : Fin N → Nat → K} (hi : ∀ k, Incr (n k) (p k))
    (j : Fin N) (g : (Fin N → Nat) → K) (b s : K)
    (hmono : ∀ loc : Fin N → Nat, (∀ k, loc k < n k) → loc j + 1 < n j →
      b * g loc + s * p j (loc j) ≤
        b * g (Function.update loc j (loc j + 1)) + s * p j (loc j + 1))
    {x : Fin N → K} {z : K} (hin : ∀ k, k ≠ j → InRange (n k) (p k) (x k)) (hxz : x j ≤ z)
    {c : Fin N → Nat} {d : Nat} (hc : ∀ k, InCell (n k) (p k) (x k) (c k))
    (hd : InCell (n j) (p j) z d) :
    b * axisByAxis (fun k f => linPiece (p k) f (c k) (x k)) g + s * x j ≤
      b * axisByAxis (fun k f => linPiece (p k) f (Function.update c j d k)
        (Function.update x j z k)) g + s * z := by
  have hlin : ∀ (x : Fin N → K) (c : Fin N → Nat), (∀ k, InCell (n k) (p k) (x k) (c k)) →
      axisByAxis (fun k f => linPiece (p k) f (c k) (x k))
        (fun loc => b * g loc + s * p j (loc j)) =
      b * axisByAxis (fun k f => linPiece (p k) f (c k) (x k)) g + s * x j := by
    intro x c hc
    rw [axisByAxis_lincomb (n := n) _ (fun k => linPiece_linear (hc k).1)]
    congr 2
    refine axisByAxis_reproduce (fun φ => ∃ a b, ∀ z, φ z = a + b * z) _ p x (fun y => y j)
      (fun k φ hφ => linPiece_affine (hi k) (hc k).1 hφ) fun k y => ?_
    by_cases hk : j = k
    · subst hk; exact ⟨0, 1, fun z => by simp⟩
    · exact ⟨y j, 0, fun z => by simp [hk]⟩
  have h := linPiece_axes_mono hi j (fun loc => b * g loc + s * p j (loc j))
    (fun loc hl hj => by simpa using hmono loc hl hj) hin hxz hc hd
  rw [hlin x c hc, hlin _ _ (update_cells hc hd)] at h
  simpa using h

/-- The core of C75 for `x j ≤ z`. -/
theorem lipschitz_core {n : Fin N → Nat} {p : Fin N → Nat → K} (hi : ∀ k, Incr (n k) (p k))
    (j : Fin N) (g : (Fin N → Nat) → K) (S : K)
    (hS : ∀ loc : Fin N → Nat, (∀ k, loc k < n k) → loc j + 1 < n j →
      |g (Function.update loc j (loc j + 1)) - g loc| ≤ S * (p j (loc j + 1) - p j (loc j)))
    {x : Fin N → K} {z : K} (hin : ∀ k, k ≠ j → InRange (n k) (p k) (x k)) (hxz : x j ≤ z)
    {c : Fin N → Nat} {d : Nat} (hc : ∀ k, InCell (n k) (p k) (x k) (c k))
    (hd : InCell (n j) (p j) z d) :
    |axisByAxis (fun k f => linPiece (p k) f (Function.update c j d k)
        (Function.update x j z k)) g -
      axisByAxis (fun k f => linPiece (p k) f (c k) (x k)) g| ≤ S * (z - x j) := by
  have h1 := lipschitz_half hi j g 1 S (fun loc hl hj => by
    have := abs_le.1 (hS loc hl hj); linarith [this.1]) hin hxz hc hd
  have h2 := lipschitz_half hi j g (-1) S (fun loc hl hj => by
    have := abs_le.1 (hS loc hl hj); linarith [this.2]) hin hxz hc hd
  rw [abs_le]
  constructor <;> linarith

/-- C75: if the slopes of the data along axis `j` are at most `S`, moving coordinate `j` by `δ`
changes the result by at most `S |δ|`, when the other coordinates are inside the grid. -/
theorem C75_axis (e : Evaluator) (he : e.Fits N) (fma : Bool) (G : Axes K N)
    (vals : List K) (hG : G.Valid 2 vals) (g : (Fin N → Nat) → K) (hg : Samples G.size vals g)
    (j : Fin N) (S : K) (hS : SlopesBounded G g j S) (x : Fin N → K) (z : K)
    (hin : ∀ k, k ≠ j → InRange (G.size k) (G.node k) (x k))
    (hx : G.Representable x) (hz : G.Representable (Function.update x j z)) :
    ∃ y y', multilinearAt e fma G vals x = .ok y ∧
      multilinearAt e fma G vals (Function.update x j z) = .ok y' ∧
      |y' - y| ≤ S * |z - x j| := by
  obtain ⟨c, hc⟩ := hG.cells le_rfl x
  obtain ⟨d, hd⟩ := exists_inCell (p := G.node j) (hG.big j) z
  refine ⟨_, _, multilinearAt_eq e he fma G vals hG g hg x hx c hc,
    multilinearAt_eq e he fma G vals hG g hg _ hz _ (update_cells hc hd), ?_⟩
  rcases le_total (x j) z with h | h
  · rw [abs_of_nonneg (sub_nonneg.2 h)]
    exact lipschitz_core hG.incr j g S hS hin h hc hd
  · have hb : x = Function.update (Function.update x j z) j (x j) := by simp
    have := lipschitz_core hG.incr j g S hS (x := Function.update x j z) (z := x j)
      (fun k hk => by simpa [hk] using hin k hk) (by simpa using h) (update_cells hc hd) (hc j)
    rw [← hb] at this
    simp only [Function.update_self, Function.update_idem, Function.update_eq_self] at this
    rw [abs_sub_comm, abs_sub_comm z, abs_of_nonneg (sub_nonneg.2 h)]
    exact this

theorem lipschitz_sum_on (P : Fin N → K → Prop) (L : Fin N → K) (F : (Fin N → K) → K)
    (hF : ∀ y k z, (∀ k, P k (y k)) → P k z → |F (Function.update y k z) - F y| ≤ L k * |z - y k|)
    (a b : Fin N → K) (ha : ∀ k, P k (a k)) (hb : ∀ k, P k (b k)) :
    |F a - F b| ≤ ∑ k, L k * |a k - b k| := by
  classical
  have key : ∀ s : Finset (Fin N), |F (s.piecewise a b) - F b| ≤ ∑ k ∈ s, L k * |a k - b k| := by
    intro s
    induction s using Finset.induction_on with
    | empty => simp
    | insert k s hk ih =>
      rw [Finset.piecewise_insert, Finset.sum_insert hk]
      have h1 := hF (s.piecewise a b) k (a k) (fun k => by
        by_cases h : k ∈ s
        · rw [Finset.piecewise_eq_of_mem _ _ _ h]; exact ha k
        · rw [Finset.piecewise_eq_of_notMem _ _ _ h]; exact hb k) (ha k)
      rw [Finset.piecewise_eq_of_notMem _ _ _ hk] at h1
      have h2 := abs_add_le (F (Function.update (s.piecewise a b) k (a k)) - F (s.piecewise a b))
        (F (s.piecewise a b) - F b)
      rw [sub_add_sub_cancel] at h2
      linarith
  have := key Finset.univ
  rwa [Finset.piecewise_univ] at this

/-- C75: inside the grid the result changes by at most the sum of the slope bounds of the axes
times the distances moved. -/
theorem C75_all_axes (e : Evaluator) (he : e.Fits N) (fma : Bool) (G : Axes K N)
    (vals : List K) (hG : G.Valid 2 vals) (g : (Fin N → Nat) → K) (hg : Samples G.size vals g)
    (S : Fin N → K) (hS : ∀ j, SlopesBounded G g j (S j)) (x x' : Fin N → K)
    (hin : ∀ k, InRange (G.size k) (G.node k) (x k))
    (hin' : ∀ k, InRange (G.size k) (G.node k) (x' k)) :
    ∃ y y', multilinearAt e fma G vals x = .ok y ∧ multilinearAt e fma G vals x' = .ok y' ∧
      |y' - y| ≤ ∑ k, S k * |x' k - x k| := by
  have hfit : ∀ x : Fin N → K, (∀ k, InRange (G.size k) (G.node k) (x k)) → G.Representable x :=
    fun x h => hG.inRange_fits le_rfl h _ (by decide)
  have hval : ∀ x : Fin N → K, ∃ y, (∀ k, InRange (G.size k) (G.node k) (x k)) →
      multilinearAt e fma G vals x = .ok y := by
    intro x
    by_cases h : ∀ k, InRange (G.size k) (G.node k) (x k)
    · obtain ⟨c, hc⟩ := hG.cells le_rfl x
      exact ⟨_, fun _ => multilinearAt_eq e he fma G vals hG g hg x (hfit x h) c hc⟩
    · exact ⟨0, fun h' => absurd h' h⟩
  choose F hF using hval
  refine ⟨F x, F x', hF x hin, hF x' hin', ?_⟩
  refine lipschitz_sum_on (fun k => InRange (G.size k) (G.node k)) S F ?_ x' x hin' hin
  intro y k z hy hz
  have hyz : ∀ k', InRange (G.size k') (G.node k') (Function.update y k z k') := by
    intro k'
    by_cases h : k' = k
    · subst h; simpa using hz
    · simpa [h] using hy k'
  obtain ⟨u, v, hu, hv, huv⟩ := C75_axis e he fma G vals hG g hg k (S k) (hS k) y z
    (fun k' _ => hy k') (hfit y hy) (hfit _ hyz)
  rw [hF y hy] at hu
  rw [hF _ hyz] at hv
  cases hu
  cases hv
  exact huv

end

section Examples

/-- C75 on a table with slopes at most 4 along axis 0 and at most 5/2 along axis 1. -/
example :
    let vals : List ℚ := [2, 1, 6, 1, 10, 3]
    exRegular.Valid 2 vals ∧ Samples exRegular.size vals (valAt 0 exRegular.size vals) ∧
      (∀ loc : (k : Fin 2) → Fin (exRegular.size k), ∀ j : Fin 2,
        (loc j).val + 1 < exRegular.size j →
        |valAt 0 exRegular.size vals (Function.update (fun k => (loc k).val) j ((loc j).val + 1)) -
          valAt 0 exRegular.size vals (fun k => (loc k).val)| ≤
          ![4, 7/2] j * (exRegular.node j ((loc j).val + 1) - exRegular.node j (loc j).val)) ∧
      (∀ k, InRange (exRegular.size k) (exRegular.node k) (![1/2, 2] k)) ∧
      (∀ k, InRange (exRegular.size k) (exRegular.node k) (![2, 1] k)) ∧
      multilinearAt .flat false exRegular vals ![1/2, 2] = .ok (5/2) ∧
      multilinearAt .flat false exRegular vals ![2, 1] = .ok 10 := by
  refine ⟨valid_of_check ?_, samples_of_check ?_, ?_⟩ <;> decide +kernel

end Examples

end Interpn
