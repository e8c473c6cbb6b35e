import Verif.Lemmas.Rounding
import Verif.Lemmas.ExactCore
import Verif.Lemmas.Pieces
import Verif.Lemmas.Accept
import Mathlib.Tactic.FieldSimp

/-! Accuracy of the weights, and sensitivity of the blend to its weights. -/

set_option autoImplicit false
set_option linter.unusedSectionVars false

namespace Interpn
open FloatOps

section
variable {T K : Type} [FloatOps T] [Field K] [LinearOrder K] [IsStrictOrderedRing K]
  {val : T → K} {fin : T → Prop} {u η Ω : K}

theorem weightCost_nonneg (h : 0 ≤ u) (h1 : u < 1) : 0 ≤ weightCost u := by
  unfold weightCost
  have : 0 < 1 - u := by linarith
  positivity

/-- A computed quotient of differences. -/
theorem rounds_ratio (h : Rounds val fin u η Ω) (hu1 : u < 1) {x a b c : T} (hx : fin x)
    (ha : fin a) (hb : fin b) (hc : fin c) (hab : val c < val b) {R : K}
    (hxa : |val x - val a| ≤ Ω) (hba : |val b - val c| ≤ Ω)
    (hR : |(val x - val a) / (val b - val c)| ≤ R) (hRΩ : R * (1 + weightCost u) ≤ Ω) :
    fin ((x -. a) /. (b -. c)) ∧
    |val ((x -. a) /. (b -. c)) - (val x - val a) / (val b - val c)| ≤
      weightCost u * |(val x - val a) / (val b - val c)| + η := by
  have hu := h.u_nonneg
  obtain ⟨hsf, hse⟩ := h.sub x a hx ha hxa
  obtain ⟨hdf, hde⟩ := h.sub b c hb hc hba
  have hd0 : 0 < val b - val c := sub_pos.2 hab
  set y := val x - val a
  set d := val b - val c
  set s := val (x -. a)
  set e := val (b -. c)
  have h1u : 0 < 1 - u := by linarith
  rw [abs_of_pos hd0] at hde
  have he : (1 - u) * d ≤ e := by have := (abs_le.1 hde).1; linarith
  have he0 : 0 < e := lt_of_lt_of_le (by positivity) he
  have hs : |s| ≤ (1 + u) * |y| := by
    have := abs_sub_abs_le_abs_sub s y; linarith
  have hyd : |y / d| = |y| / d := by rw [abs_div, abs_of_pos hd0]
  have hse' : |s / e| ≤ (1 + u) / (1 - u) * |y / d| := by
    rw [abs_div, abs_of_pos he0, hyd, div_le_iff₀ he0]
    have : (1 + u) * |y| ≤ (1 + u) / (1 - u) * (|y| / d) * e := by
      calc (1 + u) * |y| = (1 + u) / (1 - u) * (|y| / d) * ((1 - u) * d) := by field_simp
        _ ≤ _ := by gcongr
    linarith
  have hst : |s / e - y / d| ≤ 2 * u / (1 - u) * |y / d| := by
    rw [div_sub_div _ _ he0.ne' hd0.ne', abs_div, abs_of_pos (mul_pos he0 hd0), hyd,
      div_le_iff₀ (mul_pos he0 hd0)]
    have h1 : |s * d - e * y| ≤ u * |y| * d + u * d * |y| := by
      have : s * d - e * y = (s - y) * d - (e - d) * y := by ring
      rw [this]
      refine (abs_sub _ _).trans ?_
      rw [abs_mul, abs_mul, abs_of_pos hd0]
      gcongr
    have h2 : u * |y| * d + u * d * |y| = 2 * u / (1 - u) * (|y| / d) * ((1 - u) * d * d) := by
      field_simp; ring
    have h3 : 2 * u / (1 - u) * (|y| / d) * ((1 - u) * d * d) ≤
        2 * u / (1 - u) * (|y| / d) * (e * d) := by gcongr
    linarith
  have hR0 : 0 ≤ R := (abs_nonneg _).trans hR
  have hfac : (1 + u) / (1 - u) ≤ 1 + weightCost u := by
    unfold weightCost
    rw [div_le_iff₀ h1u, add_mul, div_mul_cancel₀ _ h1u.ne']
    nlinarith
  obtain ⟨hqf, hqe⟩ := h.div (x -. a) (b -. c) hsf hdf he0.ne' (by
    refine hse'.trans ?_
    calc (1 + u) / (1 - u) * |y / d| ≤ (1 + weightCost u) * R := by
          have := weightCost_nonneg hu hu1
          gcongr
      _ = R * (1 + weightCost u) := by ring
      _ ≤ Ω := hRΩ)
  refine ⟨hqf, ?_⟩
  have h4 := abs_add_le (val ((x -. a) /. (b -. c)) - s / e) (s / e - y / d)
  rw [sub_add_sub_cancel] at h4
  have h5 : u * |s / e| ≤ u * ((1 + u) / (1 - u) * |y / d|) := by gcongr
  have h6 : u * ((1 + u) / (1 - u) * |y / d|) + 2 * u / (1 - u) * |y / d| =
      weightCost u * |y / d| := by
    unfold weightCost; field_simp; ring
  linarith

/-- A computed weight. -/
theorem rounds_weight (h : Rounds val fin u η Ω) (hu1 : u < 1) {x a b : T} (hx : fin x)
    (ha : fin a) (hb : fin b) (hab : val a < val b) {R : K}
    (hxa : |val x - val a| ≤ Ω) (hba : |val b - val a| ≤ Ω)
    (hR : |(val x - val a) / (val b - val a)| ≤ R) (hRΩ : R * (1 + weightCost u) ≤ Ω) :
    fin ((x -. a) /. (b -. a)) ∧
    |val ((x -. a) /. (b -. a)) - (val x - val a) / (val b - val a)| ≤
      weightCost u * |(val x - val a) / (val b - val a)| + η :=
  rounds_ratio h hu1 hx ha hb ha hab hxa hba hR hRΩ

/-- Changing the weights of a blend. -/
theorem blend_weights {L0 L M : K} (hL0 : 1 ≤ L0) (hM : 0 ≤ M) :
    ∀ {N : Nat} (w w' : Fin N → K) (c : Fin N → Nat) (g : (Fin N → Nat) → K)
    (_ : ∀ k, |1 - w k| + |w k| ≤ L0) (_ : ∀ k, 2 * |w' k - w k| ≤ L - L0)
    (_ : ∀ loc : Fin N → Nat, (∀ k, loc k = c k ∨ loc k = c k + 1) → |g loc| ≤ M),
    |blend w' c g| ≤ L ^ N * M ∧ |blend w' c g - blend w c g| ≤ (L ^ N - L0 ^ N) * M
  | 0, w, w', c, g, _, _, hg => by
    have := hg (fun k => k.elim0) (fun k => k.elim0)
    unfold blend
    rw [axisByAxis, axisByAxis]
    refine ⟨by simpa using this, by simp⟩
  | N + 1, w, w', c, g, hw, hw', hg => by
    have ih : ∀ i, i = c (Fin.last N) ∨ i = c (Fin.last N) + 1 → _ := fun i hi =>
      blend_weights hL0 hM (fun k : Fin N => w k.castSucc) (fun k => w' k.castSucc)
        (fun k => c k.castSucc)
        (fun loc => g (Fin.snoc (α := fun _ => Nat) loc i)) (fun k => hw _) (fun k => hw' _)
        (fun loc hl => hg _ fun k => by
          refine Fin.lastCases ?_ (fun k => ?_) k
          · rw [Fin.snoc_last]; exact hi
          · rw [Fin.snoc_castSucc]; exact hl k)
    obtain ⟨s0, e0⟩ := ih _ (.inl rfl)
    obtain ⟨s1, e1⟩ := ih _ (.inr rfl)
    have hb : ∀ v : Fin (N + 1) → K, blend v c g = (1 - v (Fin.last N)) *
        blend (fun k : Fin N => v k.castSucc) (fun k => c k.castSucc)
          (fun loc => g (Fin.snoc (α := fun _ => Nat) loc (c (Fin.last N)))) +
        v (Fin.last N) * blend (fun k : Fin N => v k.castSucc) (fun k => c k.castSucc)
          (fun loc => g (Fin.snoc (α := fun _ => Nat) loc (c (Fin.last N) + 1))) := by
      intro v; unfold blend; rw [axisByAxis]
    rw [hb w', hb w]
    set b0 := blend (fun k : Fin N => w k.castSucc) (fun k => c k.castSucc)
          (fun loc => g (Fin.snoc (α := fun _ => Nat) loc (c (Fin.last N))))
    set b1 := blend (fun k : Fin N => w k.castSucc) (fun k => c k.castSucc)
          (fun loc => g (Fin.snoc (α := fun _ => Nat) loc (c (Fin.last N) + 1)))
    set b0' := blend (fun k : Fin N => w' k.castSucc) (fun k => c k.castSucc)
          (fun loc => g (Fin.snoc (α := fun _ => Nat) loc (c (Fin.last N))))
    set b1' := blend (fun k : Fin N => w' k.castSucc) (fun k => c k.castSucc)
          (fun loc => g (Fin.snoc (α := fun _ => Nat) loc (c (Fin.last N) + 1)))
    have hw0 := hw (Fin.last N)
    have hw1 := hw' (Fin.last N)
    set t := w (Fin.last N)
    set t' := w' (Fin.last N)
    have htL : |1 - t'| + |t'| ≤ L := by
      have h1 := abs_add_le (1 - t) (t - t')
      have h2 := abs_add_le t (t' - t)
      rw [sub_add_sub_cancel] at h1
      rw [add_sub_cancel] at h2
      rw [abs_sub_comm t t'] at h1
      linarith
    have hs := blend_abs_le htL s0 s1
    refine ⟨by rw [pow_succ', mul_assoc]; exact hs, ?_⟩
    have e : (1 - t') * b0' + t' * b1' - ((1 - t) * b0 + t * b1) =
        ((1 - t) * (b0' - b0) + t * (b1' - b1)) + (t' - t) * (b1' - b0') := by ring
    rw [e]
    have h1 := blend_abs_le hw0 e0 e1
    have h2 : |(t' - t) * (b1' - b0')| ≤ (L - L0) * (L ^ N * M) := by
      rw [abs_mul]
      have h3 : |b1' - b0'| ≤ 2 * (L ^ N * M) := by
        have := abs_sub b1' b0'; linarith
      have hn := abs_nonneg (t' - t)
      have hn' : 0 ≤ L ^ N * M := (abs_nonneg _).trans s0
      calc |t' - t| * |b1' - b0'| ≤ |t' - t| * (2 * (L ^ N * M)) := by gcongr
        _ = 2 * |t' - t| * (L ^ N * M) := by ring
        _ ≤ _ := by gcongr
    refine (abs_add_le _ _).trans ((add_le_add h1 h2).trans (le_of_eq ?_))
    ring

end

section
variable {K : Type} [Field K] [LinearOrder K] [IsStrictOrderedRing K] {n : Nat} {p : Nat → K}

/-- The weight of a point near the range. -/
theorem weight_nearRange (hi : Incr n p) {x lam : K} {c : Nat} (hlam : 0 ≤ lam)
    (hc : InCell n p x c) (hx : NearRange n p lam x) :
    -lam ≤ (x - p c) / (p (c + 1) - p c) ∧ (x - p c) / (p (c + 1) - p c) ≤ 1 + lam := by
  have hd : 0 < p (c + 1) - p c := sub_pos.2 (hi c hc.1)
  rw [le_div_iff₀ hd, div_le_iff₀ hd]
  constructor
  · rcases hc.2.1 with rfl | h
    · have := hx.1; linarith
    · nlinarith
  · rcases hc.2.2 with h | h
    · have := hx.2
      rw [show n - 1 = c + 1 by omega, show n - 2 = c by omega] at this
      linarith
    · nlinarith

theorem abs_weight_nearRange {t lam : K} (hlam : 0 ≤ lam) (h : -lam ≤ t ∧ t ≤ 1 + lam) :
    |1 - t| + |t| ≤ 1 + 2 * lam ∧ |t| ≤ 1 + lam := by
  obtain ⟨h1, h2⟩ := h
  constructor
  · rcases abs_cases (1 - t) with ⟨e, _⟩ | ⟨e, _⟩ <;> rcases abs_cases t with ⟨e', _⟩ | ⟨e', _⟩ <;>
      rw [e, e'] <;> linarith
  · rw [abs_le]; constructor <;> linarith

end

end Interpn
