import Verif.Lemmas.Interpolant
import Verif.Props.Smooth

/-! C123: the interpolants are characterised by the data and the shape along each axis. -/

set_option autoImplicit false
set_option linter.unusedSectionVars false

namespace Interpn

section
variable {K : Type} [Field K] [LinearOrder K] [IsStrictOrderedRing K] [FloorRing K]
variable {n : Nat} {p : Nat → K}

theorem CubicOnCell.slopes {φ : K → K} {lin : Bool} (hn : 4 ≤ n) (hi : Incr n p) {i : Nat}
    (hc : i + 1 < n) {c0 c1 c2 c3 : K} (h : CubicOnCell n p lin φ i c0 c1 c2 c3) :
    ∀ j, j = i ∨ j = i + 1 → φ (p j) = c0 + c1 * p j + c2 * p j ^ 2 + c3 * p j ^ 3 ∧
      nodeSlope n p (fun i => φ (p i)) j = c1 + 2 * c2 * p j + 3 * c3 * p j ^ 2 := by
  have hv : ∀ j, j = i ∨ j = i + 1 → φ (p j) = c0 + c1 * p j + c2 * p j ^ 2 + c3 * p j ^ 3 := by
    intro j hj
    refine h.eq _ ⟨hc, ?_, ?_⟩ fun _ => ⟨hi.le (by omega) (by omega), hi.le (by omega) (by omega)⟩
    · exact .inr (hi.le (by omega) (by omega))
    · exact .inr (hi.le (by omega) (by omega))
  have hin : ∀ j, j = i ∨ j = i + 1 → 1 ≤ j → j + 1 < n →
      nodeSlope n p (fun i => φ (p i)) j = c1 + 2 * c2 * p j + 3 * c3 * p j ^ 2 := by
    intro j hj h0 h1
    rw [nodeSlope_centered h0 h1, h.slope j hj h0 h1]
    rfl
  intro j hj
  refine ⟨hv j hj, ?_⟩
  rcases Nat.eq_zero_or_pos j with h0 | h0
  · obtain rfl : i = 0 := by omega
    subst h0
    have hd : p 1 - p 0 ≠ 0 := (sub_pos.2 (hi 0 (by omega))).ne'
    rw [nodeSlope_first (by omega), hin 1 (.inr rfl) le_rfl (by omega), hv 0 (.inl rfl), hv 1 (.inr rfl),
      h.deg (.inl rfl)]
    field_simp
    ring
  · rcases Nat.lt_or_ge (j + 1) n with h1 | h1
    · exact hin j hj h0 h1
    · obtain rfl : j = i + 1 := by omega
      have hd : p (i + 1) - p i ≠ 0 := (sub_pos.2 (hi i hc)).ne'
      rw [nodeSlope_last (by omega) (by omega), hin i (.inl rfl) (by omega) (by omega), hv i (.inl rfl),
        hv (i + 1) (.inr rfl), h.deg (.inr (by omega))]
      field_simp
      ring

theorem PiecewiseCubic.piece {φ : K → K} {lin : Bool} (h : PiecewiseCubic n p lin φ) (hn : 4 ≤ n)
    (hi : Incr n p) {x : K} {c : Nat} (hc : InCell n p x c) :
    cubicPiece n p (fun i => φ (p i)) lin c x = φ x := by
  obtain ⟨c0, c1, c2, c3, hC⟩ := h c hc.1
  have hs := hC.slopes hn hi hc.1
  unfold cubicPiece
  split
  · rename_i hx
    have hc0 : c = 0 := by
      rcases hc.2.1 with h0 | h0
      · exact h0
      · exact absurd hx.2 (not_lt.2 ((hi.le (by omega) (by have := hc.1; omega)).trans h0))
    subst hc0
    rw [hC.below hx.1 rfl x hx.2, (hs 0 (.inl rfl)).2]
  · rename_i hx0
    split
    · rename_i hx
      have hc1 : c + 2 = n := by
        rcases hc.2.2 with h0 | h0
        · exact h0
        · exact absurd hx.2 (not_lt.2 (h0.trans (hi.le (by have := hc.1; omega) (by omega))))
      have e : n - 1 = c + 1 := by omega
      rw [e] at hx ⊢
      rw [hC.above hx.1 hc1 x hx.2, (hs (c + 1) (.inr rfl)).2]
    · rename_i hx1
      rw [hC.eq x hc fun hl => ⟨not_lt.1 fun h' => hx0 ⟨hl, h'⟩, not_lt.1 fun h' => hx1 ⟨hl, h'⟩⟩]
      exact hermiteCubic_cubic (hi c hc.1) (hs c (.inl rfl)).1.symm (hs _ (.inr rfl)).1.symm
        (hs c (.inl rfl)).2.symm (hs _ (.inr rfl)).2.symm x

theorem piecewiseCubic_piece (hn : 4 ≤ n) (hi : Incr n p) (f : Nat → K) (lin : Bool) {cell : K → Nat}
    (hc : ∀ z, InCell n p z (cell z)) :
    PiecewiseCubic n p lin fun z => cubicPiece n p f lin (cell z) z := by
  intro i h
  have hlt := hi i h
  have hnode : ∀ j, j < n → cubicPiece n p f lin (cell (p j)) (p j) = f j :=
    fun j hj => cubicPiece_node hi f lin hj (hc _)
  obtain ⟨c0, c1, c2, c3, he, h0, h1, h3⟩ :=
    hermite_coeffs hlt (f i) (f (i + 1)) (nodeSlope n p f i) (nodeSlope n p f (i + 1))
  refine ⟨c0, c1, c2, c3, fun z hz hl => ?_, fun hd => h3 ?_, fun j hj hj0 hj1 => ?_,
    fun hl hi0 z hz => ?_, fun hl hi0 z hz => ?_⟩
  · rw [cubicPiece_unique hi f lin (hc z) hz]
    unfold cubicPiece
    rw [if_neg fun h' => absurd h'.2 (not_lt.2 (hl h'.1).1),
      if_neg fun h' => absurd h'.2 (not_lt.2 (hl h'.1).2), he]
  · rcases hd with rfl | hd
    · rw [nodeSlope_first (by omega)]; ring
    · rw [nodeSlope_last (by omega) hd]; ring
  · rw [hnode j (by omega), hnode (j + 1) hj1, hnode (j - 1) (by omega)]
    have : c1 + 2 * c2 * p j + 3 * c3 * p j ^ 2 = nodeSlope n p f j := by
      rcases hj with rfl | rfl
      · exact h0
      · exact h1
    rw [this, nodeSlope_centered hj0 hj1]
    rfl
  · subst hi0
    rw [hnode 0 (by omega), h0]
    unfold cubicPiece
    rw [if_pos ⟨hl, hz⟩]
  · have e : n - 1 = i + 1 := by omega
    rw [hnode (i + 1) (by omega), h1]
    unfold cubicPiece
    rw [e, if_neg fun h' => absurd h'.2 (not_lt.2 ((hi.le (by omega) (by omega)).trans hz.le)),
      if_pos ⟨hl, hz⟩]

variable {N : Nat}

/-- C123: there is exactly one function on the whole space that takes the stored values at the nodes
and is, with all other coordinates fixed at any values, affine along each axis on every cell. -/
theorem C123_multilinear_unique (G : Axes K N) (vals : List K) (hG : G.Valid 2 vals)
    (g : (Fin N → Nat) → K) :
    ∃! F : (Fin N → K) → K,
      (∀ loc : Fin N → Nat, (∀ k, loc k < G.size k) → F (fun k => G.node k (loc k)) = g loc) ∧
      ∀ k y, PiecewiseAffine (G.size k) (G.node k) fun z => F (Function.update y k z) := by
  have hcell : ∀ k z, ∃ c, InCell (G.size k) (G.node k) z c := fun k z => exists_inCell (hG.big k) z
  choose cell hc using hcell
  have hlin := fun (k : Fin N) (z : K) =>
    linPiece_linear (p := G.node k) (x := z) (hc k z).1
  let F : (Fin N → K) → K := fun x => axisByAxis (fun k f => linPiece (G.node k) f (cell k (x k)) (x k)) g
  refine ⟨F, ⟨fun loc hl => ?_, fun k y => ?_⟩, fun F' hF' => ?_⟩
  · exact axisByAxis_eval _ _ loc fun k f => linPiece_node (hG.incr k) f (hl k) (hc k _)
  · obtain ⟨f, hf⟩ := axisByAxis_axis k (fun k f => linPiece (G.node k) f (cell k (y k)) (y k))
      (fun j => hlin j (y j)) g
    have : (fun z => F (Function.update y k z)) = fun z => linPiece (G.node k) f (cell k z) z := by
      funext z
      rw [← hf _ (hlin k z)]
      refine axisByAxis_congr_op _ _ _ fun j f => ?_
      by_cases hj : j = k
      · subst hj; simp only [Function.update_self]
      · simp only [Function.update_of_ne hj]
    rw [this]
    exact piecewiseAffine_piece (hG.incr k) f (hc k)
  · funext x
    rw [← axisByAxis_reproduce' (fun k => PiecewiseAffine (G.size k) (G.node k))
      (fun k f => linPiece (G.node k) f (cell k (x k)) (x k)) G.node x F'
      (fun k φ hφ => hφ.piece (hG.incr k) (hc k _)) hF'.2]
    refine axisByAxis_congr (fun k i => i < G.size k) _ _ _ _ (fun k f f' h => (hlin k _).congr f f' h)
      fun loc hl => hF'.1 loc hl

/-- C123: multilinear interpolation returns this function. -/
theorem C123_multilinear (e : Evaluator) (he : e.Fits N) (fma : Bool) (G : Axes K N) (vals : List K)
    (hG : G.Valid 2 vals) (g : (Fin N → Nat) → K) (hg : Samples G.size vals g) (F : (Fin N → K) → K)
    (hn : ∀ loc : Fin N → Nat, (∀ k, loc k < G.size k) → F (fun k => G.node k (loc k)) = g loc)
    (hF : ∀ k y, PiecewiseAffine (G.size k) (G.node k) fun z => F (Function.update y k z))
    (x : Fin N → K) (hx : G.Representable x) : multilinearAt e fma G vals x = .ok (F x) := by
  obtain ⟨c, hc⟩ := hG.cells le_rfl x
  rw [multilinearAt_eq e he fma G vals hG (fun loc => F fun k => G.node k (loc k))
    (fun loc hl => (hg loc hl).trans (congrArg some (hn loc hl).symm)) x hx c hc]
  congr 1
  exact axisByAxis_reproduce' (fun k => PiecewiseAffine (G.size k) (G.node k)) _ G.node x F
    (fun k φ hφ => hφ.piece (hG.incr k) (hc k)) hF

/-- C123: there is exactly one function on the whole space that takes the stored values at the nodes
and has, with all other coordinates fixed at any values, the shape `PiecewiseCubic` along each axis. -/
theorem C123_multicubic_unique (G : Axes K N) (vals : List K) (lin : Bool) (hG : G.Valid 4 vals)
    (g : (Fin N → Nat) → K) :
    ∃! F : (Fin N → K) → K,
      (∀ loc : Fin N → Nat, (∀ k, loc k < G.size k) → F (fun k => G.node k (loc k)) = g loc) ∧
      ∀ k y, PiecewiseCubic (G.size k) (G.node k) lin fun z => F (Function.update y k z) := by
  have hcell : ∀ k z, ∃ c, InCell (G.size k) (G.node k) z c :=
    fun k z => exists_inCell (by have := hG.big k; omega) z
  choose cell hc using hcell
  have hlin := fun (k : Fin N) (z : K) =>
    cubicPiece_linear (p := G.node k) (x := z) (hG.big k) lin (hc k z).1
  let F : (Fin N → K) → K := fun x =>
    axisByAxis (fun k f => cubicPiece (G.size k) (G.node k) f lin (cell k (x k)) (x k)) g
  refine ⟨F, ⟨fun loc hl => ?_, fun k y => ?_⟩, fun F' hF' => ?_⟩
  · exact axisByAxis_eval _ _ loc fun k f => cubicPiece_node (hG.incr k) f lin (hl k) (hc k _)
  · obtain ⟨f, hf⟩ := axisByAxis_axis k
      (fun k f => cubicPiece (G.size k) (G.node k) f lin (cell k (y k)) (y k))
      (fun j => hlin j (y j)) g
    have : (fun z => F (Function.update y k z)) =
        fun z => cubicPiece (G.size k) (G.node k) f lin (cell k z) z := by
      funext z
      rw [← hf _ (hlin k z)]
      refine axisByAxis_congr_op _ _ _ fun j f => ?_
      by_cases hj : j = k
      · subst hj; simp only [Function.update_self]
      · simp only [Function.update_of_ne hj]
    rw [this]
    exact piecewiseCubic_piece (hG.big k) (hG.incr k) f lin (hc k)
  · funext x
    rw [← axisByAxis_reproduce' (fun k => PiecewiseCubic (G.size k) (G.node k) lin)
      (fun k f => cubicPiece (G.size k) (G.node k) f lin (cell k (x k)) (x k)) G.node x F'
      (fun k φ hφ => hφ.piece (hG.big k) (hG.incr k) (hc k _)) hF'.2]
    refine axisByAxis_congr (fun k i => i < G.size k) _ _ _ _ (fun k f f' h => (hlin k _).congr f f' h)
      fun loc hl => hF'.1 loc hl

/-- C123: multicubic interpolation returns this function. -/
theorem C123_multicubic (e : Evaluator) (he : e.Fits N) (fma : Bool) (G : Axes K N) (vals : List K)
    (lin : Bool) (hG : G.Valid 4 vals) (g : (Fin N → Nat) → K) (hg : Samples G.size vals g)
    (F : (Fin N → K) → K)
    (hn : ∀ loc : Fin N → Nat, (∀ k, loc k < G.size k) → F (fun k => G.node k (loc k)) = g loc)
    (hF : ∀ k y, PiecewiseCubic (G.size k) (G.node k) lin fun z => F (Function.update y k z))
    (x : Fin N → K) (hx : G.RepresentableCubic x) : multicubicAt e fma G vals lin x = .ok (F x) := by
  obtain ⟨c, hc⟩ := hG.cells (by omega) x
  rw [multicubicAt_eq e he fma G vals lin hG (fun loc => F fun k => G.node k (loc k))
    (fun loc hl => (hg loc hl).trans (congrArg some (hn loc hl).symm)) x hx c hc]
  congr 1
  exact axisByAxis_reproduce' (fun k => PiecewiseCubic (G.size k) (G.node k) lin) _ G.node x F
    (fun k φ hφ => hφ.piece (hG.big k) (hG.incr k) (hc k)) hF

end

section Examples
attribute [local instance] ratOps

/-- A 3×2 table of `|x - 1| + y`, which is not a polynomial: reproduced everywhere. -/
example (e : Evaluator) (he : e.Fits 2) (fma : Bool) (x : Fin 2 → ℚ) :
    multilinearAt e fma exRectilinear [2, 4, 1, 3, 4, 6] x = .ok (|x 0 - 1| + x 1) := by
  refine C123_multilinear e he fma exRectilinear _ (valid_of_check ?_)
    (fun loc => |exRectilinear.node 0 (loc 0) - 1| + exRectilinear.node 1 (loc 1)) (samples_of_check ?_)
    (fun x => |x 0 - 1| + x 1) (fun loc _ => rfl) ?_ x trivial
  · decide +kernel
  · decide +kernel
  · intro k y i hi
    fin_cases k
    · have : i + 1 < 3 := hi
      obtain rfl | rfl : i = 0 ∨ i = 1 := by omega
      · refine ⟨1 + y 1, -1, fun z hz => ?_⟩
        have h1 : z ≤ 1 := hz.2.2.resolve_left (by decide)
        simp [abs_of_nonpos (sub_nonpos.2 h1)]
        ring
      · refine ⟨-1 + y 1, 1, fun z hz => ?_⟩
        have h1 : 1 ≤ z := hz.2.1.resolve_left (by decide)
        simp [abs_of_nonneg (sub_nonneg.2 h1)]
        ring
    · exact ⟨|y 0 - 1|, 1, fun z _ => by simp⟩

/-- A cubic interpolant written out: nodes 0, 1, 2, 3, values 0, 0, 1, 1, linearised extrapolation. -/
def exCubic (z : ℚ) : ℚ :=
  if z < 0 then -z / 2
  else if z ≤ 1 then (z ^ 2 - z) / 2
  else if z ≤ 2 then (z - 1) / 2 + 3 / 2 * (z - 1) ^ 2 - (z - 1) ^ 3
  else if z ≤ 3 then 1 - ((3 - z) ^ 2 - (3 - z)) / 2
  else 1 - (z - 3) / 2

/-- It is reproduced everywhere. -/
example (e : Evaluator) (he : e.Fits 1) (fma : Bool) (x : ℚ) :
    multicubicAt e fma (.rectilinear fun _ : Fin 1 => [0, 1, 2, 3]) [0, 0, 1, 1] true (fun _ => x) =
      .ok (exCubic x) := by
  let G : Axes ℚ 1 := .rectilinear fun _ => [0, 1, 2, 3]
  refine C123_multicubic e he fma G _ true (valid_of_check ?_)
    (fun loc => exCubic (G.node 0 (loc 0))) (samples_of_check ?_) (fun x => exCubic (x 0))
    (fun loc _ => rfl) ?_ (fun _ => x) trivial
  · decide +kernel
  · decide +kernel
  · intro k y i hi
    obtain rfl : k = 0 := Subsingleton.elim _ _
    simp only [Function.update_self]
    have : i + 1 < 4 := hi
    obtain rfl | rfl | rfl : i = 0 ∨ i = 1 ∨ i = 2 := by omega
    · refine ⟨0, -1 / 2, 1 / 2, 0, fun z hz hl => ?_, fun _ => rfl, ?_, fun _ _ z hz => ?_, ?_⟩
      · have h0 : 0 ≤ z := (hl rfl).1
        have h1 : z ≤ 1 := hz.2.2.resolve_left (by decide)
        rw [exCubic, if_neg (not_lt.2 h0), if_pos h1]; ring
      · rintro j (rfl | rfl) h0 h1
        · omega
        · decide +kernel
      · have h0 : z < 0 := hz
        have : exCubic (G.node 0 0) = 0 := by decide +kernel
        rw [this, exCubic, if_pos h0]
        show _ = 0 + (-1 / 2 + 2 * (1 / 2) * 0 + 3 * 0 * 0 ^ 2) * (z - 0)
        ring
      · intro _ h; exact absurd h (by decide)
    · refine ⟨2, -11 / 2, 9 / 2, -1, fun z hz hl => ?_, fun h => absurd h (by decide), ?_,
        fun _ h => absurd h (by decide), fun _ h => absurd h (by decide)⟩
      · have h0 : 1 ≤ z := hz.2.1.resolve_left (by decide)
        have h1 : z ≤ 2 := hz.2.2.resolve_left (by decide)
        rcases h0.eq_or_lt with rfl | h0
        · decide +kernel
        · rw [exCubic, if_neg (by linarith), if_neg (not_le.2 h0), if_pos h1]; ring
      · rintro j (rfl | rfl) h0 h1 <;> decide +kernel
    · refine ⟨-2, 5 / 2, -1 / 2, 0, fun z hz hl => ?_, fun _ => rfl, ?_,
        fun _ h => absurd h (by decide), fun _ _ z hz => ?_⟩
      · have h0 : 2 ≤ z := hz.2.1.resolve_left (by decide)
        have h1 : z ≤ 3 := (hl rfl).2
        rcases h0.eq_or_lt with rfl | h0
        · decide +kernel
        · rw [exCubic, if_neg (by linarith), if_neg (by linarith), if_neg (not_le.2 h0), if_pos h1]; ring
      · rintro j (rfl | rfl) h0 h1
        · decide +kernel
        · exact absurd h1 (by decide)
      · have h0 : 3 < z := hz
        have : exCubic (G.node 0 (2 + 1)) = 1 := by decide +kernel
        rw [this, exCubic, if_neg (by linarith), if_neg (by linarith), if_neg (by linarith),
          if_neg (not_le.2 h0)]
        show _ = 1 + (5 / 2 + 2 * (-1 / 2) * 3 + 3 * 0 * 3 ^ 2) * (z - 3)
        ring

end Examples

end Interpn
