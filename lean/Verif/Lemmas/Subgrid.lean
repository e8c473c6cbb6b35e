import Verif.Spec.Subgrid
import Verif.Lemmas.Pieces

/-! Axis-by-axis evaluation when one axis is trivial; nodes of parts of a grid. -/

set_option autoImplicit false
set_option linter.unusedSectionVars false

namespace Interpn

/-! ### Leaving out an axis -/

theorem withEntry_self {α : Type} {N : Nat} (j : Fin (N + 1)) (a : α) (t : Fin N → α) :
    withEntry j a t j = a := by unfold withEntry; simp

theorem withEntry_other {α : Type} {N : Nat} (j : Fin (N + 1)) (a : α) (t : Fin N → α) (k : Fin N) :
    withEntry j a t (j.succAbove k) = t k := by unfold withEntry; simp

theorem forall_withEntry {N : Nat} (j : Fin (N + 1)) {P : Fin (N + 1) → Prop} (h : P j)
    (h' : ∀ k : Fin N, P (j.succAbove k)) (k : Fin (N + 1)) : P k := by
  by_cases hk : k = j
  · rw [hk]; exact h
  · obtain ⟨k', rfl⟩ := Fin.exists_succAbove_eq hk
    exact h' k'

theorem withEntry_last {α : Type} {N : Nat} (a : α) (t : Fin N → α) :
    withEntry (Fin.last N) a t = Fin.snoc (α := fun _ => α) t a := by
  unfold withEntry
  exact Fin.insertNth_last' a t

theorem withEntry_snoc {α : Type} {N : Nat} (j : Fin (N + 1)) (a b : α) (t : Fin N → α) :
    withEntry j.castSucc a (Fin.snoc (α := fun _ => α) t b) =
      Fin.snoc (α := fun _ => α) (withEntry j a t) b := by
  funext k
  refine forall_withEntry (P := fun k => withEntry j.castSucc a (Fin.snoc (α := fun _ => α) t b) k =
      Fin.snoc (α := fun _ => α) (withEntry j a t) b k) j.castSucc ?_ ?_ k
  · rw [withEntry_self, Fin.snoc_castSucc (α := fun _ => α), withEntry_self]
  · intro k
    rw [withEntry_other]
    refine Fin.lastCases ?_ (fun k => ?_) k
    · rw [Fin.snoc_last, Fin.succAbove_ne_last_last (Fin.castSucc_lt_last j).ne, Fin.snoc_last]
    · rw [Fin.snoc_castSucc (α := fun _ => α), Fin.castSucc_succAbove_castSucc,
        Fin.snoc_castSucc (α := fun _ => α), withEntry_other]

section
variable {T : Type}

/-- An axis whose rule picks node `i`. -/
theorem axisByAxis_pick : ∀ {N : Nat} (j : Fin (N + 1)) (i : Nat)
    (op : Fin (N + 1) → (Nat → T) → T) (g : (Fin (N + 1) → Nat) → T) (_ : ∀ f, op j f = f i),
    axisByAxis op g = axisByAxis (fun k => op (j.succAbove k)) fun loc => g (withEntry j i loc)
  | N, j, i, op, g, h => by
    by_cases hj : j = Fin.last N
    · subst hj
      rw [axisByAxis, h]
      simp only [Fin.succAbove_last, withEntry_last]
    · obtain ⟨j', rfl⟩ := Fin.exists_castSucc_eq.2 hj
      match N, j' with
      | 0, j' => exact j'.elim0
      | N + 1, j' =>
        rw [axisByAxis]
        conv_rhs => rw [axisByAxis]
        rw [Fin.succAbove_ne_last_last hj]
        congr 1
        funext i'
        rw [axisByAxis_pick j' i _ _ h]
        simp only [Fin.castSucc_succAbove_castSucc, withEntry_snoc]

/-- Data that do not depend on the index of axis `j`, whose rule reproduces constants. -/
theorem axisByAxis_const : ∀ {N : Nat} (j : Fin (N + 1))
    (op : Fin (N + 1) → (Nat → T) → T) (g : (Fin (N + 1) → Nat) → T) (g' : (Fin N → Nat) → T)
    (_ : ∀ c, op j (fun _ => c) = c) (_ : ∀ i loc, g (withEntry j i loc) = g' loc),
    axisByAxis op g = axisByAxis (fun k => op (j.succAbove k)) g'
  | N, j, op, g, g', h, hg => by
    by_cases hj : j = Fin.last N
    · subst hj
      rw [axisByAxis]
      simp only [withEntry_last] at hg
      simp only [hg, h, Fin.succAbove_last]
    · obtain ⟨j', rfl⟩ := Fin.exists_castSucc_eq.2 hj
      match N, j' with
      | 0, j' => exact j'.elim0
      | N + 1, j' =>
        rw [axisByAxis]
        conv_rhs => rw [axisByAxis]
        rw [Fin.succAbove_ne_last_last hj]
        congr 1
        funext i'
        rw [axisByAxis_const j' _ _ (fun loc => g' (Fin.snoc (α := fun _ => Nat) loc i')) h
          fun i loc => by rw [← withEntry_snoc]; exact hg i _]
        simp only [Fin.castSucc_succAbove_castSucc]

end

section
variable {K : Type} [Field K] [LinearOrder K] [IsStrictOrderedRing K] [FloorRing K] {N : Nat}

theorem Axes.dropAxis_size (j : Fin (N + 1)) (G : Axes K (N + 1)) :
    (G.dropAxis j).size = fun k => G.size (j.succAbove k) := by cases G <;> rfl

theorem Axes.dropAxis_node (j : Fin (N + 1)) (G : Axes K (N + 1)) (k : Fin N) :
    (G.dropAxis j).node k = G.node (j.succAbove k) := by cases G <;> rfl

theorem Axes.dropAxis_fits (j : Fin (N + 1)) (G : Axes K (N + 1)) (lo : Int) {x : Fin N → K}
    (h : (G.dropAxis j).StepsFit lo x) {loc : Fin (N + 1) → Nat}
    (h' : G.StepsFit lo fun k => G.node k (loc k)) :
    G.StepsFit lo (withEntry j (G.node j (loc j)) x) := by
  cases G with
  | rectilinear => trivial
  | regular dims starts steps =>
    refine forall_withEntry j ?_ fun k => ?_
    · rw [withEntry_self]; exact h' j
    · rw [withEntry_other]; exact h k

/-! ### Ranges of nodes -/

theorem Axes.sub_size (a m : Fin N → Nat) (G : Axes K N) (h : ∀ k, a k + m k ≤ G.size k)
    (k : Fin N) : (G.sub a m).size k = m k := by
  cases G with
  | regular => rfl
  | rectilinear grids =>
    have := h k
    simp only [Axes.size] at this
    simp only [Axes.sub, Axes.size, List.length_take, List.length_drop]
    omega

theorem Axes.sub_node (a m : Fin N → Nat) (G : Axes K N) (k : Fin N) {i : Nat} (hi : i < m k) :
    (G.sub a m).node k i = G.node k (a k + i) := by
  cases G with
  | regular dims starts steps => simp only [Axes.sub, Axes.node]; push_cast; ring
  | rectilinear grids =>
    simp only [Axes.sub, Axes.node, List.getD_eq_getElem?_getD]
    rw [List.getElem?_take_of_lt hi, List.getElem?_drop]

/-- Evaluation on a part of the table. -/
theorem axisByAxis_shift : ∀ {N : Nat} (b : Fin N → Nat) (op op' : Fin N → (Nat → K) → K)
    (g : (Fin N → Nat) → K) (_ : ∀ k f, op' k (fun i => f (b k + i)) = op k f),
    axisByAxis op' (fun loc => g fun k => b k + loc k) = axisByAxis op g
  | 0, _, _, _, g, _ => by
    simp only [axisByAxis]
    congr 1
    funext k
    exact k.elim0
  | N + 1, b, op, op', g, h => by
    rw [axisByAxis, axisByAxis, ← h]
    congr 1
    funext i
    rw [← axisByAxis_shift (fun k => b k.castSucc) (fun k => op k.castSucc)
      (fun k => op' k.castSucc) _ fun k f => h k.castSucc f]
    congr 1
    funext loc
    congr 1
    funext k
    refine Fin.lastCases ?_ (fun k => ?_) k
    · simp only [Fin.snoc_last]
    · simp only [Fin.snoc_castSucc (α := fun _ => Nat)]

variable {n m a : Nat} {p p' f f' : Nat → K} {x : K} {c : Nat}

theorem nodeSlope_shift (hm : 4 ≤ m) (hn : a + m ≤ n) (hp : ∀ i < m, p' i = p (a + i))
    (hf : ∀ i < m, f' i = f (a + i)) {i : Nat} (hi : i < m) (h0 : a = 0 ∨ 1 ≤ i)
    (h1 : a + m = n ∨ i + 1 < m) : nodeSlope m p' f' i = nodeSlope n p f (a + i) := by
  unfold nodeSlope
  rcases Nat.eq_zero_or_pos i with h | h
  · subst h
    obtain rfl : a = 0 := by omega
    simp only [if_true, Nat.add_zero]
    simp only [Nat.zero_add] at hp hf
    simp only [Nat.reduceAdd, Nat.reduceSub]
    rw [hp 0 (by omega), hp 1 (by omega), hp 2 (by omega), hf 0 (by omega), hf 1 (by omega),
      hf 2 (by omega)]
  · obtain ⟨i, rfl⟩ : ∃ i', i = i' + 1 := ⟨i - 1, by omega⟩
    have e1 : ¬ i + 1 = 0 := by omega
    have e2 : ¬ a + (i + 1) = 0 := by omega
    simp only [if_neg e1, if_neg e2]
    by_cases hl : i + 1 + 1 = m
    · have hl' : a + (i + 1) + 1 = n := by omega
      obtain ⟨i, rfl⟩ : ∃ i', i = i' + 1 := ⟨i - 1, by omega⟩
      simp only [if_pos hl, if_pos hl']
      simp only [show a + (i + 1 + 1) - 1 = a + (i + 1) by omega,
        show a + (i + 1) - 1 = a + i by omega, Nat.add_sub_cancel]
      rw [hp (i + 1) (by omega), hp (i + 1 + 1) (by omega), hp i (by omega),
        hf (i + 1) (by omega), hf (i + 1 + 1) (by omega), hf i (by omega)]
      simp only [Nat.add_assoc]
    · have hl' : ¬ a + (i + 1) + 1 = n := by omega
      simp only [if_neg hl, if_neg hl']
      simp only [show a + (i + 1) - 1 = a + i by omega, Nat.add_sub_cancel]
      rw [hp (i + 1) (by omega), hp (i + 1 + 1) (by omega), hp i (by omega),
        hf (i + 1) (by omega), hf (i + 1 + 1) (by omega), hf i (by omega)]
      simp only [Nat.add_assoc]

/-- A cell away from the ends of the part. -/
theorem exists_inner_cell {A B : Prop} (hm : 4 ≤ m) (hi : Incr m p) (h0 : A ∨ p 1 ≤ x)
    (h1 : B ∨ x ≤ p (m - 2)) :
    ∃ c, InCell m p x c ∧ (A ∨ 1 ≤ c) ∧ (B ∨ c + 2 < m) := by
  obtain ⟨c, hc⟩ := exists_inCell (n := m) (p := p) (by omega) x
  by_cases hA : A
  · by_cases hB : B
    · exact ⟨c, hc, .inl hA, .inl hB⟩
    · have h1 := h1.resolve_left hB
      by_cases h : c + 2 < m
      · exact ⟨c, hc, .inl hA, .inr h⟩
      · have hc1 := hc.1
        have hx : p (m - 2) ≤ x := by
          have := hc.2.1.resolve_left (by omega)
          rwa [show c = m - 2 by omega] at this
        refine ⟨m - 3, ⟨by omega, .inr ((hi.le (by omega) (by omega)).trans hx), .inr ?_⟩,
          .inl hA, .inr (by omega)⟩
        rwa [show m - 3 + 1 = m - 2 by omega]
  · have h0 := h0.resolve_left hA
    by_cases h : 1 ≤ c
    · by_cases hB : B
      · exact ⟨c, hc, .inr h, .inl hB⟩
      · have h1 := h1.resolve_left hB
        by_cases h' : c + 2 < m
        · exact ⟨c, hc, .inr h, .inr h'⟩
        · have hc1 := hc.1
          have hx : p (m - 2) ≤ x := by
            have := hc.2.1.resolve_left (by omega)
            rwa [show c = m - 2 by omega] at this
          refine ⟨m - 3, ⟨by omega, .inr ((hi.le (by omega) (by omega)).trans hx), .inr ?_⟩,
            .inr (by omega), .inr (by omega)⟩
          rwa [show m - 3 + 1 = m - 2 by omega]
    · obtain rfl : c = 0 := by omega
      have hx : x ≤ p 1 := hc.2.2.resolve_left (by omega)
      exact ⟨1, ⟨by omega, .inr h0, .inr (hx.trans (hi 1 (by omega)).le)⟩, .inr le_rfl,
        .inr (by omega)⟩

theorem cubicPiece_shift (hm : 4 ≤ m) (hi : Incr n p) (hn : a + m ≤ n)
    (hp : ∀ i < m, p' i = p (a + i)) (hf : ∀ i < m, f' i = f (a + i)) (lin : Bool)
    (hc : InCell m p' x c) (h0 : a = 0 ∨ 1 ≤ c) (h1 : a + m = n ∨ c + 2 < m) :
    cubicPiece m p' f' lin c x = cubicPiece n p f lin (a + c) x := by
  have hc1 := hc.1
  unfold cubicPiece
  rw [nodeSlope_shift (n := n) hm hn hp hf (i := c) (by omega) h0 (by omega),
    nodeSlope_shift (n := n) hm hn hp hf (i := c + 1) hc1 (by omega) (by omega),
    hp c (by omega), hp (c + 1) hc1, hf c (by omega), hf (c + 1) hc1, ← Nat.add_assoc]
  -- the extrapolation branches
  rcases h0 with h0 | h0
  · subst h0
    rw [nodeSlope_shift (a := 0) (n := n) hm hn hp hf (i := 0) (by omega) (by omega) (by omega),
      hp 0 (by omega), hf 0 (by omega)]
    simp only [Nat.add_zero]
    split
    · rfl
    · rcases h1 with h1 | h1
      · obtain rfl : m = n := by omega
        rw [nodeSlope_shift (a := 0) (n := m) hm (by omega) hp hf (i := m - 1) (by omega) (by omega)
          (by omega), hp (m - 1) (by omega), hf (m - 1) (by omega), Nat.zero_add]
      · have hx : x ≤ p' (c + 1) := hc.2.2.resolve_left (by omega)
        have h2 : ¬ p' (m - 1) < x := by
          rw [hp _ (by omega)]
          rw [hp _ (by omega)] at hx
          exact not_lt.2 (hx.trans (hi.le (by omega) (by omega)))
        have h3 : ¬ p (n - 1) < x := by
          rw [hp _ (by omega)] at hx
          exact not_lt.2 (hx.trans (hi.le (by omega) (by omega)))
        simp only [h2, h3, and_false, if_false]
  · have hx : p' c ≤ x := hc.2.1.resolve_left (by omega)
    rw [hp _ (by omega)] at hx
    have h2 : ¬ x < p' 0 := by
      rw [hp _ (by omega)]
      exact not_lt.2 ((hi.le (by omega) (by omega)).trans hx)
    have h3 : ¬ x < p 0 := not_lt.2 ((hi.le (by omega) (by omega)).trans hx)
    simp only [h2, h3, and_false, if_false]
    rcases h1 with h1 | h1
    · subst h1
      rw [nodeSlope_shift (n := a + m) hm le_rfl hp hf (i := m - 1) (by omega) (by omega) (by omega),
        hp (m - 1) (by omega), hf (m - 1) (by omega),
        show a + (m - 1) = a + m - 1 by omega]
    · have hx : x ≤ p' (c + 1) := hc.2.2.resolve_left (by omega)
      have h2 : ¬ p' (m - 1) < x := by
        rw [hp _ (by omega)]
        rw [hp _ (by omega)] at hx
        exact not_lt.2 (hx.trans (hi.le (by omega) (by omega)))
      have h3 : ¬ p (n - 1) < x := by
        rw [hp _ (by omega)] at hx
        exact not_lt.2 (hx.trans (hi.le (by omega) (by omega)))
      simp only [h2, h3, and_false, if_false]

theorem nearest_shift (hi : Incr n p) (hn : a + m ≤ n) (hp : ∀ i < m, p' i = p (a + i))
    (h0 : a = 0 ∨ p (a + 0) ≤ x) (h1 : a + m = n ∨ x ≤ p (a + m - 1)) {i : Nat}
    (h : IsNearest m p' x i) : IsNearest n p x (a + i) := by
  obtain ⟨him, hle, hlt⟩ := h
  have hlow : ∀ j < a, |x - p (a + i)| < |x - p j| := by
    intro j hj
    have hx : p a ≤ x := h0.resolve_left (by omega)
    have h2 := hle 0 (by omega)
    rw [hp _ him, hp 0 (by omega), Nat.add_zero, abs_of_nonneg (sub_nonneg.2 hx)] at h2
    have h3 : p j < p a := hi.lt hj (by omega)
    rw [abs_of_nonneg (a := x - p j) (by linarith)]
    linarith
  have hup : ∀ j, a + m ≤ j → j < n → |x - p (a + i)| ≤ |x - p j| := by
    intro j hj hjn
    have hx : x ≤ p (a + m - 1) := h1.resolve_left (by omega)
    have h2 := hle (m - 1) (by omega)
    rw [hp _ him, hp (m - 1) (by omega), show a + (m - 1) = a + m - 1 by omega,
      abs_of_nonpos (a := x - p (a + m - 1)) (by linarith)] at h2
    have h3 : p (a + m - 1) < p j := hi.lt (by omega) hjn
    rw [abs_of_nonpos (a := x - p j) (by linarith)]
    linarith
  refine ⟨by omega, fun j hj => ?_, fun j hj => ?_⟩
  · rcases Nat.lt_or_ge j a with h | h
    · exact (hlow j h).le
    · rcases Nat.lt_or_ge j (a + m) with h' | h'
      · have := hle (j - a) (by omega)
        rwa [hp _ him, hp _ (by omega), show a + (j - a) = j by omega] at this
      · exact hup j h' hj
  · rcases Nat.lt_or_ge j a with h | h
    · exact hlow j h
    · have := hlt (j - a) (by omega)
      rwa [hp _ him, hp _ (by omega), show a + (j - a) = j by omega] at this

/-! ### Refinement -/

/-- A cell of a refined axis lies in a cell of the coarse axis. -/
theorem refined_cell {n' : Nat} (hn : 2 ≤ n) (hi : Incr n p) (hi' : Incr n' p')
    (hnodes : ∀ i < n, ∃ i' < n', p' i' = p i) {c' : Nat} (hc' : InCell n' p' x c') :
    ∃ c, InCell n p x c ∧ InCell n p (p' c') c ∧ InCell n p (p' (c' + 1)) c := by
  classical
  obtain ⟨hc1, hc2, hc3⟩ := hc'
  -- a coarse node above the lower end is above the upper end
  have hgap : ∀ i < n, p' c' < p i → p' (c' + 1) ≤ p i := by
    intro i hin h
    obtain ⟨i', hi'n, he⟩ := hnodes i hin
    rw [← he] at h ⊢
    have : c' < i' := by
      by_contra hh
      exact absurd h (not_lt.2 (hi'.le (by omega) (by omega)))
    exact hi'.le (by omega) hi'n
  have hstep := hi' c' hc1
  -- the first coarse cell whose upper node is above the lower end, or the last cell
  have hP : ∃ i, i + 2 = n ∨ p' c' < p (i + 1) := ⟨n - 2, .inl (by omega)⟩
  have hmin : Nat.find hP ≤ n - 2 := Nat.find_min' hP (.inl (by omega))
  have hspec := Nat.find_spec hP
  have hlow : Nat.find hP = 0 ∨ p (Nat.find hP) ≤ p' c' := by
    rcases Nat.eq_zero_or_pos (Nat.find hP) with h | h
    · exact .inl h
    · right
      have := Nat.find_min hP (m := Nat.find hP - 1) (by omega)
      rw [not_or, not_lt, show Nat.find hP - 1 + 1 = Nat.find hP by omega] at this
      exact this.2
  generalize Nat.find hP = c at hmin hspec hlow
  refine ⟨c, ⟨by omega, ?_, ?_⟩, ⟨by omega, hlow, hspec.imp_right fun h => h.le⟩,
    ⟨by omega, hlow.imp_right fun h => h.trans hstep.le,
      hspec.imp_right fun h => hgap _ (by omega) h⟩⟩
  · rcases hlow with h | h
    · exact .inl h
    · rcases hc2 with h2 | h2
      · -- the observation is below the refined axis
        subst h2
        obtain ⟨i', hi'n, he⟩ := hnodes 0 (by omega)
        have h3 : p' 0 ≤ p 0 := by rw [← he]; exact hi'.le (by omega) hi'n
        left
        by_contra hne
        exact absurd (h.trans h3) (not_le.2 (hi.lt (by omega) (by omega)))
      · exact .inr (h.trans h2)
  · rcases hspec with h | h
    · exact .inl h
    · rcases hc3 with h3 | h3
      · obtain ⟨i', hi'n, he⟩ := hnodes (n - 1) (by omega)
        have h4 : p (n - 1) ≤ p' (c' + 1) := by rw [← he]; exact hi'.le (by omega) hc1
        left
        by_contra hne
        exact absurd (h4.trans (hgap (c + 1) (by omega) h))
          (not_le.2 (hi.lt (by omega) (by omega)))
      · exact .inr (h3.trans (hgap _ (by omega) h))

/-- Evaluation in a fixed cell is affine in each coordinate. -/
theorem axisByAxis_affine_coord : ∀ {N : Nat} (p : Fin N → Nat → K) (c : Fin N → Nat)
    (g : (Fin N → Nat) → K) (k : Fin N) (y : Fin N → K), ∃ a b, ∀ z,
    axisByAxis (fun k' f => linPiece (p k') f (c k') (Function.update y k z k')) g = a + b * z
  | N + 1, p, c, g, k, y => by
    have hlin : ∀ (p f : Nat → K) (c : Nat), ∃ a b, ∀ z, linPiece p f c z = a + b * z :=
      fun p f c => ⟨f c - p c / (p (c + 1) - p c) * (f (c + 1) - f c),
        (f (c + 1) - f c) / (p (c + 1) - p c), fun z => by unfold linPiece; ring⟩
    by_cases hk : k = Fin.last N
    · subst hk
      simp only [axisByAxis, Function.update_self]
      have hne : ∀ k : Fin N, k.castSucc ≠ Fin.last N := fun k => (Fin.castSucc_lt_last k).ne
      simp only [Function.update_of_ne (hne _)]
      exact hlin _ _ _
    · obtain ⟨k', rfl⟩ := Fin.exists_castSucc_eq.2 hk
      have ih := fun i => axisByAxis_affine_coord (fun k => p k.castSucc) (fun k => c k.castSucc)
        (fun loc => g (Fin.snoc (α := fun _ => Nat) loc i)) k' fun k => y k.castSucc
      choose a b hab using ih
      have hu : ∀ z (k : Fin N), Function.update y k'.castSucc z k.castSucc =
          Function.update (fun k : Fin N => y k.castSucc) k' z k := by
        intro z k
        by_cases h : k = k'
        · subst h; simp
        · simp [h]
      refine ⟨linPiece (p (Fin.last N)) a (c (Fin.last N)) (y (Fin.last N)),
        linPiece (p (Fin.last N)) b (c (Fin.last N)) (y (Fin.last N)), fun z => ?_⟩
      simp only [axisByAxis, Function.update_of_ne (Ne.symm hk), hu, hab]
      unfold linPiece
      ring

end

end Interpn
