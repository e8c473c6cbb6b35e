import Verif.Spec.Rounding
import Verif.Lemmas.Forms
import Mathlib.Tactic.Linarith
import Mathlib.Tactic.Ring
import Mathlib.Tactic.Positivity
import Mathlib.Tactic.GCongr
import Mathlib.Algebra.Order.Ring.Abs

/-! Error analysis of the linear blend. -/

set_option autoImplicit false
set_option linter.unusedSectionVars false

namespace Interpn
open FloatOps

variable {T K : Type} [FloatOps T] [Field K] [LinearOrder K] [IsStrictOrderedRing K]
  {val : T → K} {fin : T → Prop} {u η Ω : K}

theorem blendCost_nonneg (h : 0 ≤ u) : 0 ≤ blendCost u := by unfold blendCost; positivity

/-- `|(1 - t) a + t b| ≤ L M`. -/
theorem blend_abs_le {t a b L M : K} (ht : |1 - t| + |t| ≤ L) (ha : |a| ≤ M) (hb : |b| ≤ M) :
    |(1 - t) * a + t * b| ≤ L * M := by
  have hM : 0 ≤ M := (abs_nonneg a).trans ha
  calc |(1 - t) * a + t * b| ≤ |1 - t| * |a| + |t| * |b| := by
        rw [← abs_mul, ← abs_mul]; exact abs_add_le _ _
    _ ≤ |1 - t| * M + |t| * M := by gcongr
    _ = (|1 - t| + |t|) * M := by ring
    _ ≤ L * M := by gcongr

theorem one_le_of_weight {t L : K} (ht : |1 - t| + |t| ≤ L) : 1 ≤ L := by
  have : |(1 : K)| ≤ |1 - t| + |t| := by
    have := abs_add_le (1 - t) t
    simpa using this
  rw [abs_one] at this
  linarith

theorem weight_le {t L : K} (ht : |1 - t| + |t| ≤ L) : |t| ≤ L := by
  have := abs_nonneg (1 - t); linarith

/-- One rounded linear blend. -/
theorem rounds_lerp (h : Rounds val fin u η Ω) (fma : Bool) {t : T} {v : Fin 2 → T} {L M : K}
    (ht : fin t) (h0 : fin (v 0)) (h1 : fin (v 1)) (hL : |1 - val t| + |val t| ≤ L)
    (hM0 : |val (v 0)| ≤ M) (hM1 : |val (v 1)| ≤ M)
    (hΩ : 2 * (1 + u) ^ 2 * (L * M) + η ≤ Ω) :
    fin (lerp fma t v) ∧
      |val (lerp fma t v) - ((1 - val t) * val (v 0) + val t * val (v 1))| ≤
        blendCost u * (L * M) + (1 + u) * η := by
  have hu := h.u_nonneg
  have hη := h.η_nonneg
  have hM : 0 ≤ M := (abs_nonneg _).trans hM0
  have hL1 := one_le_of_weight hL
  have htL := weight_le hL
  have hE := blend_abs_le hL hM0 hM1
  have hML : M ≤ L * M := by nlinarith
  have hLM : 0 ≤ L * M := hM.trans hML
  have huLM : 0 ≤ u * (L * M) := by positivity
  have hu2LM : 0 ≤ u * u * (L * M) := by positivity
  have huη : 0 ≤ u * η := by positivity
  have hu3LM : 0 ≤ u * u * u * (L * M) := by positivity
  have hΩ' : 2 * (L * M) + 4 * (u * (L * M)) + 2 * (u * u * (L * M)) + η ≤ Ω := by
    refine le_trans (le_of_eq ?_) hΩ; ring
  have hD : |val (v 1) - val (v 0)| ≤ 2 * M := by
    have := abs_sub (val (v 1)) (val (v 0)); linarith
  have htD : |val t| * |val (v 1) - val (v 0)| ≤ 2 * (L * M) := by
    calc _ ≤ L * (2 * M) := by gcongr
      _ = _ := by ring
  obtain ⟨hdf, hde⟩ := h.sub (v 1) (v 0) h1 h0 (by linarith)
  have hdabs : |val (v 1 -. v 0)| ≤ (1 + u) * |val (v 1) - val (v 0)| := by
    have := abs_sub_abs_le_abs_sub (val (v 1 -. v 0)) (val (v 1) - val (v 0)); linarith
  -- the rounded difference times the weight
  have htd : |val t * val (v 1 -. v 0)| ≤ (1 + u) * (2 * (L * M)) := by
    rw [abs_mul]
    calc |val t| * |val (v 1 -. v 0)| ≤ |val t| * ((1 + u) * |val (v 1) - val (v 0)|) := by gcongr
      _ = (1 + u) * (|val t| * |val (v 1) - val (v 0)|) := by ring
      _ ≤ _ := by gcongr
  have htd' : |val t * val (v 1 -. v 0) - val t * (val (v 1) - val (v 0))| ≤ u * (2 * (L * M)) := by
    rw [← mul_sub, abs_mul]
    calc _ ≤ |val t| * (u * |val (v 1) - val (v 0)|) := by gcongr
      _ = u * (|val t| * |val (v 1) - val (v 0)|) := by ring
      _ ≤ _ := by gcongr
  have hEeq : (1 - val t) * val (v 0) + val t * val (v 1) =
      val (v 0) + val t * (val (v 1) - val (v 0)) := by ring
  rw [hEeq] at hE ⊢
  unfold lerp
  cases fma
  · simp only [Bool.false_eq_true, if_false]
    obtain ⟨hpf, hpe⟩ := h.mul t (v 1 -. v 0) ht hdf (by nlinarith)
    have hp : |val (t *. (v 1 -. v 0)) - val t * (val (v 1) - val (v 0))| ≤
        u * (2 + u) * (2 * (L * M)) + η := by
      have h1 := abs_add_le (val (t *. (v 1 -. v 0)) - val t * val (v 1 -. v 0))
        (val t * val (v 1 -. v 0) - val t * (val (v 1) - val (v 0)))
      rw [show val (t *. (v 1 -. v 0)) - val t * val (v 1 -. v 0) +
        (val t * val (v 1 -. v 0) - val t * (val (v 1) - val (v 0))) =
        val (t *. (v 1 -. v 0)) - val t * (val (v 1) - val (v 0)) by ring] at h1
      have h2 : u * |val t * val (v 1 -. v 0)| ≤ u * ((1 + u) * (2 * (L * M))) := by gcongr
      nlinarith
    have hs : |val (v 0) + val (t *. (v 1 -. v 0))| ≤
        L * M + (u * (2 + u) * (2 * (L * M)) + η) := by
      have h1 := abs_add_le (val (v 0) + val t * (val (v 1) - val (v 0)))
        (val (t *. (v 1 -. v 0)) - val t * (val (v 1) - val (v 0)))
      rw [show val (v 0) + val t * (val (v 1) - val (v 0)) +
        (val (t *. (v 1 -. v 0)) - val t * (val (v 1) - val (v 0))) =
        val (v 0) + val (t *. (v 1 -. v 0)) by ring] at h1
      linarith
    obtain ⟨hrf, hre⟩ := h.add (v 0) (t *. (v 1 -. v 0)) h0 hpf (by nlinarith)
    refine ⟨hrf, ?_⟩
    have h1 := abs_add_le (val (v 0 +. t *. (v 1 -. v 0)) - (val (v 0) + val (t *. (v 1 -. v 0))))
      (val (t *. (v 1 -. v 0)) - val t * (val (v 1) - val (v 0)))
    rw [show val (v 0 +. t *. (v 1 -. v 0)) - (val (v 0) + val (t *. (v 1 -. v 0))) +
      (val (t *. (v 1 -. v 0)) - val t * (val (v 1) - val (v 0))) =
      val (v 0 +. t *. (v 1 -. v 0)) - (val (v 0) + val t * (val (v 1) - val (v 0))) by ring] at h1
    have h2 : u * |val (v 0) + val (t *. (v 1 -. v 0))| ≤
        u * (L * M + (u * (2 + u) * (2 * (L * M)) + η)) := by gcongr
    unfold blendCost
    nlinarith
  · simp only [if_true]
    have hs : |val t * val (v 1 -. v 0) + val (v 0)| ≤ L * M + u * (2 * (L * M)) := by
      have h1 := abs_add_le (val (v 0) + val t * (val (v 1) - val (v 0)))
        (val t * val (v 1 -. v 0) - val t * (val (v 1) - val (v 0)))
      rw [show val (v 0) + val t * (val (v 1) - val (v 0)) +
        (val t * val (v 1 -. v 0) - val t * (val (v 1) - val (v 0))) =
        val t * val (v 1 -. v 0) + val (v 0) by ring] at h1
      linarith
    obtain ⟨hrf, hre⟩ := h.mulAdd t (v 1 -. v 0) (v 0) ht hdf h0 (by nlinarith)
    refine ⟨hrf, ?_⟩
    have h1 := abs_add_le
      (val (mulAdd t (v 1 -. v 0) (v 0)) - (val t * val (v 1 -. v 0) + val (v 0)))
      (val t * val (v 1 -. v 0) - val t * (val (v 1) - val (v 0)))
    rw [show val (mulAdd t (v 1 -. v 0) (v 0)) - (val t * val (v 1 -. v 0) + val (v 0)) +
      (val t * val (v 1 -. v 0) - val t * (val (v 1) - val (v 0))) =
      val (mulAdd t (v 1 -. v 0) (v 0)) - (val (v 0) + val t * (val (v 1) - val (v 0))) by ring] at h1
    have h2 : u * |val t * val (v 1 -. v 0) + val (v 0)| ≤ u * (L * M + u * (2 * (L * M))) := by
      gcongr
    have e1 : u * (L * M + u * (2 * (L * M))) = u * (L * M) + 2 * (u * u * (L * M)) := by ring
    have e2 : blendCost u * (L * M) + (1 + u) * η = 5 * (u * (L * M)) + 6 * (u * u * (L * M)) +
        2 * (u * u * u * (L * M)) + η + u * η := by unfold blendCost; ring
    rw [e2]
    linarith

theorem blendError_succ_le (hu : 0 ≤ u) (hη : 0 ≤ η) {L M : K} (hL : 1 ≤ L) (N : Nat) :
    L * blendError u η L M N + (blendCost u * (L * (L ^ N * M + blendError u η L M N)) + (1 + u) * η)
      ≤ blendError u η L M (N + 1) := by
  have hc := blendCost_nonneg hu
  set ρ := L * (1 + blendCost u) with hρ
  have hρ1 : 1 ≤ ρ := by nlinarith
  have hp : 1 ≤ ρ ^ (N + 1) := one_le_pow₀ hρ1
  unfold blendError
  rw [← hρ]
  push_cast
  have e : L * ((ρ ^ N - L ^ N) * M + N * ρ ^ N * ((1 + u) * η)) +
      (blendCost u * (L * (L ^ N * M + ((ρ ^ N - L ^ N) * M + N * ρ ^ N * ((1 + u) * η)))) +
        (1 + u) * η) =
      (ρ ^ (N + 1) - L ^ (N + 1)) * M + N * ρ ^ (N + 1) * ((1 + u) * η) + (1 + u) * η := by
    rw [pow_succ ρ, pow_succ L]
    have : ρ = L + blendCost u * L := by rw [hρ]; ring
    generalize ρ ^ N = R
    rw [this]; ring
  rw [e]
  have h2 : (1 + u) * η ≤ ρ ^ (N + 1) * ((1 + u) * η) := by
    have : 0 ≤ (1 + u) * η := by positivity
    nlinarith
  linarith

theorem blendSize_eq {L M : K} (N : Nat) :
    blendSize u η L M N = L ^ N * M + blendError u η L M N := by
  unfold blendSize blendError; ring

theorem blendSize_mono (hu : 0 ≤ u) (hη : 0 ≤ η) {L M : K} (hL : 1 ≤ L) (hM : 0 ≤ M) (N : Nat) :
    blendSize u η L M N ≤ blendSize u η L M (N + 1) := by
  have hc := blendCost_nonneg hu
  unfold blendSize
  set ρ := L * (1 + blendCost u) with hρ
  have hρ1 : 1 ≤ ρ := by nlinarith
  have hp : ρ ^ N ≤ ρ ^ (N + 1) := pow_le_pow_right₀ hρ1 (by omega)
  have hp0 : 0 ≤ ρ ^ N := by positivity
  have hη' : 0 ≤ (1 + u) * η := by positivity
  gcongr
  exact_mod_cast Nat.le_succ N

/-- Rounded blending of all `2^N` corners. -/
theorem rounds_blend (h : Rounds val fin u η Ω) (fma : Bool) {L M : K} (hL1 : 1 ≤ L)
    (hM : 0 ≤ M) : ∀ {N : Nat} (t : Fin N → T) (c : Fin N → Nat) (g : (Fin N → Nat) → T)
    (_ : ∀ k, fin (t k)) (_ : ∀ k, |1 - val (t k)| + |val (t k)| ≤ L)
    (_ : ∀ loc : Fin N → Nat, (∀ k, loc k = c k ∨ loc k = c k + 1) →
      fin (g loc) ∧ |val (g loc)| ≤ M)
    (_ : 2 * (1 + u) ^ 2 * (L * blendSize u η L M (N - 1)) + η ≤ Ω),
    fin (axisByAxis (fun k f => lerp fma (t k) fun p => f (c k + p.val)) g) ∧
    |blend (fun k => val (t k)) c (fun loc => val (g loc))| ≤ L ^ N * M ∧
    |val (axisByAxis (fun k f => lerp fma (t k) fun p => f (c k + p.val)) g) -
      blend (fun k => val (t k)) c (fun loc => val (g loc))| ≤ blendError u η L M N
  | 0, t, c, g, _, _, hg, _ => by
    have := hg (fun k => k.elim0) (fun k => k.elim0)
    refine ⟨this.1, ?_, ?_⟩
    · unfold blend; rw [axisByAxis]; simpa using this.2
    · unfold blend blendError; rw [axisByAxis, axisByAxis]; simp
  | N + 1, t, c, g, ht, hw, hg, hΩ => by
    have hu := h.u_nonneg
    have hη := h.η_nonneg
    simp only [Nat.add_sub_cancel] at hΩ
    have hmono : blendSize u η L M (N - 1) ≤ blendSize u η L M N := by
      cases N with
      | zero => exact le_rfl
      | succ n => exact blendSize_mono hu hη hL1 hM n
    -- the two halves
    have ih : ∀ i, i = c (Fin.last N) ∨ i = c (Fin.last N) + 1 → _ := fun i hi =>
      rounds_blend h fma hL1 hM (fun k : Fin N => t k.castSucc) (fun k => c k.castSucc)
        (fun loc => g (Fin.snoc (α := fun _ => Nat) loc i)) (fun k => ht _) (fun k => hw _)
        (fun loc hl => hg _ fun k => by
          refine Fin.lastCases ?_ (fun k => ?_) k
          · rw [Fin.snoc_last]; exact hi
          · rw [Fin.snoc_castSucc]; exact hl k)
        (le_trans (by gcongr) hΩ)
    obtain ⟨f0, s0, e0⟩ := ih _ (.inl rfl)
    obtain ⟨f1, s1, e1⟩ := ih _ (.inr rfl)
    set a0 := axisByAxis (fun (k : Fin N) f => lerp fma (t k.castSucc)
      fun p : Fin 2 => f (c k.castSucc + p.val))
      (fun loc => g (Fin.snoc (α := fun _ => Nat) loc (c (Fin.last N)))) with ha0
    set a1 := axisByAxis (fun (k : Fin N) f => lerp fma (t k.castSucc)
      fun p : Fin 2 => f (c k.castSucc + p.val))
      (fun loc => g (Fin.snoc (α := fun _ => Nat) loc (c (Fin.last N) + 1))) with ha1
    set b0 := blend (fun k : Fin N => val (t k.castSucc)) (fun k => c k.castSucc)
      (fun loc => val (g (Fin.snoc (α := fun _ => Nat) loc (c (Fin.last N))))) with hb0
    set b1 := blend (fun k : Fin N => val (t k.castSucc)) (fun k => c k.castSucc)
      (fun loc => val (g (Fin.snoc (α := fun _ => Nat) loc (c (Fin.last N) + 1)))) with hb1
    have hB : ∀ {a b : K}, |b| ≤ L ^ N * M → |a - b| ≤ blendError u η L M N →
        |a| ≤ blendSize u η L M N := by
      intro a b h1 h2
      rw [blendSize_eq]
      have := abs_sub_abs_le_abs_sub a b
      linarith
    have hl := rounds_lerp h fma (t := t (Fin.last N)) (v := fun p : Fin 2 => if p = 0 then a0 else a1)
      (L := L) (M := blendSize u η L M N) (ht _) f0 f1 (hw _) (hB s0 e0) (hB s1 e1) hΩ
    have hl2 : |val (lerp fma (t (Fin.last N)) (fun p : Fin 2 => if p = 0 then a0 else a1)) -
        ((1 - val (t (Fin.last N))) * val a0 + val (t (Fin.last N)) * val a1)| ≤
        blendCost u * (L * blendSize u η L M N) + (1 + u) * η := hl.2
    have heval : axisByAxis (fun k f => lerp fma (t k) fun p : Fin 2 => f (c k + p.val)) g =
        lerp fma (t (Fin.last N)) (fun p : Fin 2 => if p = 0 then a0 else a1) := by
      rw [axisByAxis]
      congr 1
      funext p
      refine Fin.cases ?_ (fun p => ?_) p
      · rfl
      · have : p = 0 := Subsingleton.elim _ _
        subst this; rfl
    have hblend : blend (fun k => val (t k)) c (fun loc => val (g loc)) =
        (1 - val (t (Fin.last N))) * b0 + val (t (Fin.last N)) * b1 := by
      unfold blend; rw [axisByAxis]; rfl
    rw [heval, hblend]
    refine ⟨hl.1, ?_, ?_⟩
    · rw [pow_succ', mul_assoc]
      exact blend_abs_le (hw _) s0 s1
    · refine le_trans ?_ (blendError_succ_le (M := M) hu hη hL1 N)
      rw [← blendSize_eq]
      have e2 : |((1 - val (t (Fin.last N))) * val a0 + val (t (Fin.last N)) * val a1) -
          ((1 - val (t (Fin.last N))) * b0 + val (t (Fin.last N)) * b1)| ≤
          L * blendError u η L M N := by
        rw [show ((1 - val (t (Fin.last N))) * val a0 + val (t (Fin.last N)) * val a1) -
          ((1 - val (t (Fin.last N))) * b0 + val (t (Fin.last N)) * b1) =
          (1 - val (t (Fin.last N))) * (val a0 - b0) + val (t (Fin.last N)) * (val a1 - b1) by ring]
        exact blend_abs_le (hw _) e0 e1
      have h3 := abs_add_le
        (val (lerp fma (t (Fin.last N)) (fun p : Fin 2 => if p = 0 then a0 else a1)) -
          ((1 - val (t (Fin.last N))) * val a0 + val (t (Fin.last N)) * val a1))
        (((1 - val (t (Fin.last N))) * val a0 + val (t (Fin.last N)) * val a1) -
          ((1 - val (t (Fin.last N))) * b0 + val (t (Fin.last N)) * b1))
      rw [sub_add_sub_cancel] at h3
      linarith

end Interpn
