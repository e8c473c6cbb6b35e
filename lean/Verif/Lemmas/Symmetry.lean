import Verif.Lemmas.Pieces

/-! How the pieces behave under rescaling and mirroring of an axis. -/

set_option autoImplicit false
set_option linter.unusedSectionVars false

namespace Interpn

theorem axisByAxis_reindex {T : Type} : ∀ {N : Nat} (op : Fin N → (Nat → T) → T)
    (g : (Fin N → Nat) → T) (ρ : Fin N → Nat → Nat),
    axisByAxis (fun k f => op k fun i => f (ρ k i)) g =
      axisByAxis op fun loc => g fun k => ρ k (loc k)
  | 0, _, g, _ => congrArg g (funext fun k => k.elim0)
  | N + 1, op, g, ρ => by
    rw [axisByAxis, axisByAxis]
    congr 1
    funext i
    show axisByAxis (fun (k : Fin N) f => op k.castSucc fun i => f (ρ k.castSucc i))
      (fun loc => g (Fin.snoc (α := fun _ => Nat) loc (ρ (Fin.last N) i))) = _
    rw [axisByAxis_reindex (fun k => op k.castSucc) _ (fun k => ρ k.castSucc)]
    congr 1
    funext loc
    congr 1
    funext k
    refine Fin.lastCases ?_ (fun j => ?_) k
    · simp
    · simp

section
variable {K : Type} [Field K] [LinearOrder K] [IsStrictOrderedRing K] [FloorRing K]
variable {n : Nat} {p f : Nat → K} {x : K} {c : Nat}

/-! ### Rescaling -/

section
variable {p' : Nat → K} {s d : K}

theorem inCell_rescale (hs : 0 < s) (hp : ∀ i < n, p' i = s * p i + d) (hc : InCell n p x c) :
    InCell n p' (s * x + d) c := by
  obtain ⟨h1, h2, h3⟩ := hc
  refine ⟨h1, h2.imp id fun h => ?_, h3.imp id fun h => ?_⟩
  · rw [hp c (by omega)]; nlinarith
  · rw [hp _ h1]; nlinarith

theorem linPiece_rescale (hs : 0 < s) (hp : ∀ i < n, p' i = s * p i + d) (hc : c + 1 < n) :
    linPiece p' f c (s * x + d) = linPiece p f c x := by
  unfold linPiece
  rw [hp c (by omega), hp _ hc, show s * x + d - (s * p c + d) = s * (x - p c) by ring,
    show s * p (c + 1) + d - (s * p c + d) = s * (p (c + 1) - p c) by ring,
    mul_div_mul_left _ _ hs.ne']

theorem nodeSlope_rescale (hs : 0 < s) (hp : ∀ i < n, p' i = s * p i + d) (hn : 4 ≤ n) {i : Nat}
    (hi : i < n) : nodeSlope n p' f i = nodeSlope n p f i / s := by
  have hdiff : ∀ a b, a < n → b < n → p' a - p' b = s * (p a - p b) := by
    intro a b ha hb; rw [hp a ha, hp b hb]; ring
  have hchord : ∀ (a b : Nat) (u : K), a < n → b < n → u / (p' a - p' b) = u / (p a - p b) / s := by
    intro a b u ha hb; rw [hdiff a b ha hb, mul_comm, ← div_div]
  have hinner : ∀ j, j + 2 < n → nodeSlope n p' f (j + 1) = nodeSlope n p f (j + 1) / s := by
    intro j hj
    rw [nodeSlope_inner hj, nodeSlope_inner hj, hchord (j + 2) j _ hj (by omega),
      hchord (j + 2) (j + 1) _ hj (by omega), hchord (j + 1) j _ (by omega) (by omega),
      hdiff _ _ (by omega) (by omega), hdiff _ _ hj (by omega)]
    congr 2
    field_simp
  rcases Nat.eq_zero_or_pos i with rfl | h0
  · rw [nodeSlope_first (by omega), nodeSlope_first (by omega), hinner 0 (by omega),
      hchord _ _ _ (by omega) (by omega)]
    ring
  · obtain ⟨j, rfl⟩ : ∃ j, i = j + 1 := ⟨i - 1, by omega⟩
    rcases Nat.lt_or_ge (j + 2) n with h1 | h1
    · exact hinner j h1
    · obtain ⟨l, rfl⟩ : ∃ l, j = l + 1 := ⟨j - 1, by omega⟩
      rw [nodeSlope_last (p := p') (by omega) (by omega),
        nodeSlope_last (p := p) (by omega) (by omega), hinner l (by omega), hchord _ _ _ (by omega) (by omega)]
      ring

theorem hermiteCubic_rescale (hs : 0 < s) (a b y0 y1 m0 m1 : K) :
    hermiteCubic (s * a + d) (s * b + d) y0 y1 (m0 / s) (m1 / s) (s * x + d) =
      hermiteCubic a b y0 y1 m0 m1 x := by
  unfold hermiteCubic
  rw [show s * x + d - (s * a + d) = s * (x - a) by ring,
    show s * b + d - (s * a + d) = s * (b - a) by ring, mul_div_mul_left _ _ hs.ne']
  generalize (x - a) / (b - a) = t
  field_simp

theorem cubicPiece_rescale (hs : 0 < s) (hp : ∀ i < n, p' i = s * p i + d) (hn : 4 ≤ n)
    (lin : Bool) (hc : c + 1 < n) :
    cubicPiece n p' f lin c (s * x + d) = cubicPiece n p f lin c x := by
  have hlt : ∀ a b : K, s * a + d < s * b + d ↔ a < b := fun a b => by
    constructor
    · intro h; by_contra h'; rw [not_lt] at h'; nlinarith
    · intro h; nlinarith
  unfold cubicPiece
  rw [nodeSlope_rescale hs hp hn (i := 0) (by omega),
    nodeSlope_rescale hs hp hn (i := n - 1) (by omega),
    nodeSlope_rescale hs hp hn (i := c) (by omega), nodeSlope_rescale hs hp hn hc,
    hp 0 (by omega), hp (n - 1) (by omega), hp c (by omega), hp _ hc, hermiteCubic_rescale hs]
  simp only [hlt]
  congr 1
  · rw [show s * x + d - (s * p 0 + d) = s * (x - p 0) by ring]; field_simp
  · congr 1
    rw [show s * x + d - (s * p (n - 1) + d) = s * (x - p (n - 1)) by ring]; field_simp

theorem isNearest_rescale (hs : 0 < s) (hp : ∀ i < n, p' i = s * p i + d) {i : Nat}
    (h : IsNearest n p x i) : IsNearest n p' (s * x + d) i := by
  have habs : ∀ j < n, |s * x + d - p' j| = s * |x - p j| := by
    intro j hj
    rw [hp j hj, show s * x + d - (s * p j + d) = s * (x - p j) by ring, abs_mul, abs_of_pos hs]
  refine ⟨h.1, fun j hj => ?_, fun j hj => ?_⟩
  · rw [habs _ h.1, habs _ hj]; exact mul_le_mul_of_nonneg_left (h.2.1 j hj) hs.le
  · rw [habs _ h.1, habs _ (hj.trans h.1)]; exact mul_lt_mul_of_pos_left (h.2.2 j hj) hs

end

/-! ### Mirroring -/

section
variable {p' : Nat → K}

theorem inCell_mirror (hp : ∀ i < n, p' i = -p (n - 1 - i)) (hc : InCell n p x c) :
    InCell n p' (-x) (n - 2 - c) := by
  obtain ⟨h1, h2, h3⟩ := hc
  refine ⟨by omega, ?_, ?_⟩
  · rcases h3 with h3 | h3
    · left; omega
    · right; rw [hp _ (by omega), show n - 1 - (n - 2 - c) = c + 1 by omega]; linarith
  · rcases h2 with h2 | h2
    · left; omega
    · right; rw [hp _ (by omega), show n - 1 - (n - 2 - c + 1) = c by omega]; linarith

theorem linPiece_mirror (hi : Incr n p) (hp : ∀ i < n, p' i = -p (n - 1 - i)) (hc : c + 1 < n) :
    linPiece p' f (n - 2 - c) (-x) = linPiece p (fun i => f (n - 1 - i)) c x := by
  have hd : p (c + 1) - p c ≠ 0 := (sub_pos.2 (hi c hc)).ne'
  unfold linPiece
  rw [hp _ (by omega), hp _ (by omega), show n - 1 - (n - 2 - c) = c + 1 by omega,
    show n - 1 - (n - 2 - c + 1) = c by omega, show n - 2 - c + 1 = n - 1 - c by omega]
  simp only [show n - 1 - (c + 1) = n - 2 - c by omega]
  have hd' : -p c - -p (c + 1) ≠ 0 := by rwa [show -p c - -p (c + 1) = p (c + 1) - p c by ring]
  rw [show -p c - -p (c + 1) = p (c + 1) - p c by ring]
  field_simp
  ring

theorem nodeSlope_mirror (hp : ∀ i < n, p' i = -p (n - 1 - i)) (hn : 4 ≤ n) {i : Nat}
    (hi : i < n) : nodeSlope n p' f (n - 1 - i) = -nodeSlope n p (fun i => f (n - 1 - i)) i := by
  have hchord : ∀ a j, a + 1 + j + 1 = n →
      (f (a + 1) - f a) / (p' (a + 1) - p' a) =
        -((f (n - 1 - (j + 1)) - f (n - 1 - j)) / (p (j + 1) - p j)) := by
    intro a j ha
    rw [hp a (by omega), hp _ (by omega), show n - 1 - a = j + 1 by omega,
      show n - 1 - (a + 1) = j by omega, show n - 1 - (j + 1) = a by omega,
      show n - 1 - j = a + 1 by omega, show -p j - -p (j + 1) = p (j + 1) - p j by ring, ← neg_div]
    congr 1; ring
  have hinner : ∀ a j, a + j + 3 = n →
      nodeSlope n p' f (a + 1) = -nodeSlope n p (fun i => f (n - 1 - i)) (j + 1) := by
    intro a j ha
    rw [nodeSlope_inner (by omega), nodeSlope_inner (by omega),
      hchord a (j + 1) (by omega), hchord (a + 1) j (by omega), hp a (by omega),
      hp (a + 1) (by omega), hp (a + 2) (by omega), show n - 1 - a = j + 2 by omega,
      show n - 1 - (a + 1) = j + 1 by omega, show n - 1 - (a + 2) = j by omega,
      show -p j - -p (j + 2) = p (j + 2) - p j by ring, ← neg_div]
    ring
  rcases Nat.eq_zero_or_pos i with rfl | h0
  · obtain ⟨a, ha⟩ : ∃ a, n = a + 3 := ⟨n - 3, by omega⟩
    have h1 := hinner a 0 (by omega)
    rw [show n - 1 - 0 = a + 1 + 1 by omega, nodeSlope_last (by omega) (by omega),
      nodeSlope_first (by omega), hchord (a + 1) 0 (by omega), h1]
    simp only [zero_add, Nat.sub_zero]
    ring
  · obtain ⟨j, rfl⟩ : ∃ j, i = j + 1 := ⟨i - 1, by omega⟩
    rcases Nat.lt_or_ge (j + 2) n with h1 | h1
    · obtain ⟨a, ha⟩ : ∃ a, n = a + j + 3 := ⟨n - 3 - j, by omega⟩
      rw [show n - 1 - (j + 1) = a + 1 by omega]
      exact hinner a j (by omega)
    · obtain ⟨l, rfl⟩ : ∃ l, j = l + 1 := ⟨j - 1, by omega⟩
      have h2 := hinner 0 l (by omega)
      rw [zero_add] at h2
      rw [show n - 1 - (l + 1 + 1) = 0 by omega, nodeSlope_first (by omega),
        nodeSlope_last (p := p) (by omega) (by omega), h2]
      have h3 := hchord 0 (l + 1) (by omega)
      rw [zero_add] at h3
      rw [h3]
      ring

theorem cubicPiece_mirror (hi : Incr n p) (hp : ∀ i < n, p' i = -p (n - 1 - i)) (hn : 4 ≤ n)
    (lin : Bool) (hc : c + 1 < n) :
    cubicPiece n p' f lin (n - 2 - c) (-x) =
      cubicPiece n p (fun i => f (n - 1 - i)) lin c x := by
  have h0 := nodeSlope_mirror (f := f) hp hn (i := 0) (by omega)
  have h1 := nodeSlope_mirror (f := f) hp hn (i := n - 1) (by omega)
  have h2 := nodeSlope_mirror (f := f) hp hn (i := c) (by omega)
  have h3 := nodeSlope_mirror (f := f) hp hn (i := c + 1) hc
  have h01 := hi.lt (show 0 < n - 1 by omega) (by omega)
  simp only [Nat.sub_self, Nat.sub_zero, show n - 1 - (c + 1) = n - 2 - c by omega] at *
  unfold cubicPiece
  rw [show n - 2 - c + 1 = n - 1 - c by omega, h0, h1, h2, h3, hp 0 (by omega),
    hp (n - 1) (by omega), hp _ (by omega), hp (n - 1 - c) (by omega), Nat.sub_zero, Nat.sub_self,
    show n - 1 - (n - 2 - c) = c + 1 by omega, show n - 1 - (n - 1 - c) = c by omega]
  simp only [neg_lt_neg_iff, Nat.sub_zero, Nat.sub_self, show n - 1 - (c + 1) = n - 2 - c by omega]
  have hd : p (c + 1) - p c ≠ 0 := (sub_pos.2 (hi c hc)).ne'
  have hh : ∀ y0 y1 m0 m1 : K, hermiteCubic (-p (c + 1)) (-p c) y0 y1 (-m0) (-m1) (-x) =
      hermiteCubic (p c) (p (c + 1)) y1 y0 m1 m0 x := by
    intro y0 y1 m0 m1
    unfold hermiteCubic
    simp only
    have e : (-x - -p (c + 1)) / (-p c - -p (c + 1)) = 1 - (x - p c) / (p (c + 1) - p c) := by
      rw [show -p c - -p (c + 1) = p (c + 1) - p c by ring]
      field_simp; ring
    rw [e]
    generalize (x - p c) / (p (c + 1) - p c) = t
    ring
  rw [hh]
  by_cases ha : lin = true ∧ x < p 0
  · rw [if_neg (fun h => by have := h.2; have := ha.2; linarith), if_pos ha, if_pos ha]; ring
  · by_cases hb : lin = true ∧ p (n - 1) < x
    · rw [if_pos hb, if_neg ha, if_pos hb]; ring
    · rw [if_neg hb, if_neg ha, if_neg ha, if_neg hb]

end

end

end Interpn
