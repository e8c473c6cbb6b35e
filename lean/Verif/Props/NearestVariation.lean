import Verif.Props.NearestMono
import Verif.Props.Variation

/-! C51, C128 and C136 for nearest-neighbour: monotone tables give monotone results, and sweeping a
coordinate does not oscillate more than the table, in exact arithmetic and in floating point. -/

set_option autoImplicit false
set_option linter.unusedSectionVars false

namespace Interpn
open FloatOps

section
variable {K : Type} [Field K] [LinearOrder K] [IsStrictOrderedRing K] [FloorRing K] {N : Nat}

/-- C51, nearest-neighbour: if the values do not decrease along axis `j`, neither does the result in
coordinate `j`, wherever the observations lie. -/
theorem C51_nearest (fma : Bool) (G : Axes K N) (vals : List K) (hG : G.Valid 2 vals)
    (g : (Fin N → Nat) → K) (hg : Samples G.size vals g) (j : Fin N)
    (hmono : ∀ loc : Fin N → Nat, (∀ k, loc k < G.size k) → loc j + 1 < G.size j →
      g loc ≤ g (Function.update loc j (loc j + 1)))
    (x : Fin N → K) (z : K) (hxz : x j ≤ z)
    (hx : G.Representable x) (hz : G.Representable (Function.update x j z)) :
    ∃ y y', nearestAt fma G vals x = .ok y ∧
      nearestAt fma G vals (Function.update x j z) = .ok y' ∧ y ≤ y' := by
  choose c hc using fun k => exists_isNearest (hG.big k) (hG.incr k) (x k)
  obtain ⟨d, hd⟩ := exists_isNearest (hG.big j) (hG.incr j) z
  refine ⟨_, _, nearestAt_eq fma G vals hG g hg x hx c hc,
    nearestAt_eq fma G vals hG g hg _ hz (Function.update c j d) fun k => ?_, ?_⟩
  · by_cases h : k = j
    · subst h; simpa using hd
    · simpa [h] using hc k
  · have key : ∀ n, c j + n < G.size j → g c ≤ g (Function.update c j (c j + n)) := by
      intro n
      induction n with
      | zero => intro _; simp
      | succ n ih =>
        intro hn
        refine (ih (by omega)).trans ?_
        have h1 := hmono (Function.update c j (c j + n)) (fun k => by
          by_cases h : k = j
          · subst h; simpa using (by omega : c k + n < G.size k)
          · simpa [h] using (hc k).1) (by simpa using (by omega : c j + n + 1 < G.size j))
        simpa [Nat.add_assoc] using h1
    have hle := nearest_mono (hG.incr j) hxz (hc j) hd
    have := key (d - c j) (by have := hd.1; omega)
    rwa [Nat.add_sub_cancel' hle] at this

end

section
variable {f : Format} {N : Nat}

/-- C128, consequence on a regular grid: if the table does not decrease along any axis, neither does
the interpolated result. -/
theorem C128_monotone_table_regular (fma : Bool) (dims : Fin N → Nat) (starts steps : Fin N → Ieee f)
    (vals : List (Ieee f)) (hG : RegularAccepted 2 dims steps vals)
    (hst : ∀ k, Ieee.Finite (starts k)) (hstep : ∀ k, Ieee.Finite (steps k))
    (g : (Fin N → Nat) → Ieee f) (hg : Samples dims vals g)
    (hmono : ∀ i j : Fin N → Nat, (∀ k, i k ≤ j k) → (∀ k, j k < dims k) → (g i <=. g j) = true)
    (x y : Fin N → Ieee f) (h : ∀ k, (x k <=. y k) = true) (r s : Ieee f)
    (hx : nearestRegularAt fma dims starts steps vals x = .ok r)
    (hy : nearestRegularAt fma dims starts steps vals y = .ok s) : (r <=. s) = true := by
  obtain ⟨i, j, hij, hj, hr⟩ :=
    C128_nearest_regular fma dims starts steps hst hstep x y h vals hG ⟨r, hx⟩ ⟨s, hy⟩
  obtain ⟨h1, h2⟩ := hr vals g hG hg
  rw [hx] at h1
  rw [hy] at h2
  cases h1
  cases h2
  exact hmono i j hij hj

/-- C136, nearest-neighbour on a rectilinear grid in floating point: no rounding term.
Observations may be infinite. -/
theorem C136_nearest_ieee (grids : Fin N → List (Ieee f)) (vals : List (Ieee f))
    (hG : RectilinearAccepted 2 grids vals) (hvals : ∀ v ∈ vals, Ieee.Finite v)
    (hfin : ∀ k, ∀ a ∈ grids k, Ieee.Finite a ∧ 2 * |Ieee.val a| ≤ f.omega)
    (hsort : ∀ k, SortedAxis (grids k)) (g : (Fin N → Nat) → Ieee f)
    (hg : Samples (fun k => (grids k).length) vals g) (j : Fin N) (V : ℚ)
    (hV : ∀ loc : Fin N → Nat, (∀ k, loc k < (grids k).length) →
      ∑ i ∈ Finset.range ((grids j).length - 1), |Ieee.val (g (Function.update loc j (i + 1))) -
        Ieee.val (g (Function.update loc j i))| ≤ V)
    (x : Fin N → Ieee f) (m : Nat) (z : Nat → Ieee f) (hz : ∀ i < m, (z i <=. z (i + 1)) = true) :
    ∃ y : Nat → Ieee f,
      (∀ i ≤ m, nearestRectilinearAt grids vals (Function.update x j (z i)) = .ok (y i) ∧
        Ieee.Finite (y i)) ∧
      ∑ i ∈ Finset.range m, |Ieee.val (y (i + 1)) - Ieee.val (y i)| ≤ V := by
  have h2 : ∀ k, 2 ≤ (grids k).length := fun k => by
    obtain ⟨a, b, l, e, -⟩ := hG.order k
    rw [e]; simp
  have hb : ∀ k (w : Ieee f), nearRectAxis (grids k) w < (grids k).length := fun k w => by
    have := linCell_bound (h2 k) w
    have := nearestOffset_le (cellPos (fun j => (grids k).getD j zero) (linCell (grids k) w) w)
    unfold nearRectAxis
    omega
  have hs := samples_valAt zero (fun k => (grids k).length) vals hG.len
  refine ⟨fun i => g (Function.update (fun k => nearRectAxis (grids k) (x k)) j
    (nearRectAxis (grids j) (z i))), fun i _ => ?_, ?_⟩
  · have hloc : (fun k => nearRectAxis (grids k) (Function.update x j (z i) k)) =
        Function.update (fun k => nearRectAxis (grids k) (x k)) j (nearRectAxis (grids j) (z i)) := by
      funext k
      by_cases h : k = j
      · subst h; simp
      · simp [h]
    have hb' := fun k => hb k (Function.update x j (z i) k)
    refine ⟨?_, by
      have h3 := hvals _ (List.mem_of_getElem? (hg _ hb'))
      rwa [hloc] at h3⟩
    rw [nearestRectilinearAt_eq grids vals hG.slice _, hG.check le_rfl, Res.ok_bind]
    have h1 := hs _ hb'
    rw [hg _ hb', Option.some.injEq] at h1
    rw [← h1, hloc]
  · refine le_trans (pick_variation (n := (grids j).length)
      (fun i => Ieee.val (g (Function.update (fun k => nearRectAxis (grids k) (x k)) j i)))
      (fun i => nearRectAxis (grids j) (z i)) (fun i hi => ?_) fun i _ => hb j (z i)) (hV _ fun k => hb k _)
    refine Ieee.nearRectAxis_mono (h2 j) (hfin j) (hsort j) ?_ (hz i hi)
    obtain ⟨a, b, l, e, hlt⟩ := hG.order j
    rw [e]; exact hlt

end

section Examples

set_option exponentiation.threshold 1100

/-- Exact arithmetic, a table increasing along its second axis only. -/
example (x : Fin 2 → ℚ) (z : ℚ) (h : x 1 ≤ z) :
    let := ratOps
    ∃ y y', nearestAt false (.rectilinear ![[0, 1], [0, 1, 5]] : Axes ℚ 2) [0, 1, 2, 9, 9, 10] x = .ok y ∧
      nearestAt false (.rectilinear ![[0, 1], [0, 1, 5]] : Axes ℚ 2) [0, 1, 2, 9, 9, 10]
        (Function.update x 1 z) = .ok y' ∧ y ≤ y' := by
  intro
  have hG : (Axes.rectilinear ![[0, 1], [0, 1, 5]] : Axes ℚ 2).Valid 2 [0, 1, 2, 9, 9, 10] :=
    valid_of_check (by decide +kernel)
  refine C51_nearest false _ _ hG _ (samples_valAt 0 _ _ hG.len) 1 ?_ x z h trivial trivial
  intro loc hl hn
  obtain ⟨a, b, rfl⟩ : ∃ a b, loc = ![a, b] := ⟨loc 0, loc 1, by
    funext k; fin_cases k <;> rfl⟩
  have ha : a < 2 := hl 0
  have hb : b + 1 < 3 := hn
  have hb' : b < 2 := by omega
  clear hl hn h x z
  interval_cases a <;> interval_cases b <;> decide +kernel

/-- An increasing table on a regular grid of step 1/10. -/
example (x y : Fin 1 → F64) (h : ∀ k, (x k <=. y k) = true) (r s : F64)
    (hx : nearestRegularAt false (fun _ => 3) (fun _ => q64 (-1)) (fun _ => q64 (1 / 10))
      [q64 2, q64 6, q64 7] x = .ok r)
    (hy : nearestRegularAt false (fun _ => 3) (fun _ => q64 (-1)) (fun _ => q64 (1 / 10))
      [q64 2, q64 6, q64 7] y = .ok s) : (r <=. s) = true := by
  have hmono : ∀ b < 3, ∀ a ≤ b, (([q64 2, q64 6, q64 7] : List F64).getD a zero <=.
      ([q64 2, q64 6, q64 7] : List F64).getD b zero) = true := by decide +kernel
  refine C128_monotone_table_regular (N := 1) false _ _ _ _
    ⟨by unfold IsSlice; decide, by decide, by decide, by decide +kernel⟩ (by decide +kernel)
    (by decide +kernel) (fun i => ([q64 2, q64 6, q64 7] : List F64).getD (i 0) zero) ?_ ?_ x y h r s hx hy
  · intro loc hloc
    have h3 : loc 0 < 3 := hloc 0
    have hi : cIndex (fun _ : Fin 1 => 3) loc = loc 0 := by simp [cIndex]
    change ([q64 2, q64 6, q64 7] : List F64)[cIndex (fun _ : Fin 1 => 3) loc]? = _
    dsimp only
    rw [hi, List.getD_eq_getElem _ _ (by exact h3), List.getElem?_eq_getElem]
  · intro i j hij hj
    exact hmono (j 0) (hj 0) (i 0) (hij 0)

/-- A table of variation 5 along an axis with a node that is not a float. -/
example (x : Fin 1 → F64) (m : Nat) (z : Nat → F64) (hz : ∀ i < m, (z i <=. z (i + 1)) = true) :
    ∃ y : Nat → F64, (∀ i ≤ m, nearestRectilinearAt (fun _ : Fin 1 => [q64 0, q64 (1 / 10), q64 4])
      [q64 2, q64 6, q64 5] (Function.update x 0 (z i)) = .ok (y i) ∧ Ieee.Finite (y i)) ∧
      ∑ i ∈ Finset.range m, |Ieee.val (y (i + 1)) - Ieee.val (y i)| ≤ 5 := by
  refine C136_nearest_ieee (N := 1) _ _
    ⟨by unfold IsSlice; decide, by decide, by decide, fun _ => ⟨_, _, _, rfl, by decide +kernel⟩⟩
    (by decide +kernel) (by decide +kernel) (fun _ => by unfold SortedAxis; decide +kernel)
    (fun i => ([q64 2, q64 6, q64 5] : List F64).getD (i 0) zero) ?_ 0 5 ?_ x m z hz
  · intro loc hloc
    have h3 : loc 0 < 3 := hloc 0
    have hi : cIndex (fun _ : Fin 1 => 3) loc = loc 0 := by simp [cIndex]
    change ([q64 2, q64 6, q64 5] : List F64)[cIndex (fun _ : Fin 1 => 3) loc]? = _
    dsimp only
    rw [hi, List.getD_eq_getElem _ _ (by exact h3), List.getElem?_eq_getElem]
  · intro loc _
    simp only [Function.update_self]
    decide +kernel

end Examples

end Interpn
