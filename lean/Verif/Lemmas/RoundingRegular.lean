import Verif.Lemmas.RoundingWeights
import Verif.Lemmas.Cells
import Verif.Lemmas.Accuracy

/-! Accuracy of the cell and the weight computed on a regular axis, and sensitivity of the
interpolant to them. -/

set_option autoImplicit false
set_option linter.unusedSectionVars false

namespace Interpn
open FloatOps

section
variable {K : Type} [Field K] [LinearOrder K] [IsStrictOrderedRing K] [FloorRing K]

/-- Growth of a small relative error. -/
theorem one_add_pow_le {β : K} (hβ : 0 ≤ β) : ∀ n : Nat, 2 * (n : K) * β ≤ 1 →
    (1 + β) ^ n ≤ 1 + 2 * n * β
  | 0, _ => by simp
  | n + 1, hn => by
    push_cast at hn ⊢
    have h2 : 2 * (n : K) * β ≤ 1 := by linarith
    have h1 := one_add_pow_le hβ n h2
    have h3 : (1 + β) ^ n * (1 + β) ≤ (1 + 2 * n * β) * (1 + β) := by gcongr
    have h4 : 2 * (n : K) * β * β ≤ 1 * β := by gcongr
    rw [pow_succ]
    linarith

/-! ### Sensitivity -/

/-- Perturbing every axis rule. -/
theorem axisByAxis_perturb {L0 L M : K} (hL0 : 0 ≤ L0) (hM : 0 ≤ M) :
    ∀ {N : Nat} (S : Fin N → Nat → Prop) (op op' : Fin N → (Nat → K) → K) (g : (Fin N → Nat) → K)
    (_ : ∀ k f f' ε, (∀ i, S k i → |f i - f' i| ≤ ε) → |op k f - op k f'| ≤ L0 * ε)
    (_ : ∀ k B f, (∀ i, S k i → |f i| ≤ B) → |op' k f| ≤ L * B)
    (_ : ∀ k B f, (∀ i, S k i → |f i| ≤ B) → |op' k f - op k f| ≤ (L - L0) * B)
    (_ : ∀ loc : Fin N → Nat, (∀ k, S k (loc k)) → |g loc| ≤ M),
    |axisByAxis op' g| ≤ L ^ N * M ∧ |axisByAxis op' g - axisByAxis op g| ≤ (L ^ N - L0 ^ N) * M
  | 0, S, op, op', g, _, _, _, hg => by
    have := hg (fun k => k.elim0) (fun k => k.elim0)
    rw [axisByAxis, axisByAxis]
    exact ⟨by simpa using this, by simp⟩
  | N + 1, S, op, op', g, h1, h2, h3, hg => by
    have ih : ∀ i, S (Fin.last N) i → _ := fun i hi =>
      axisByAxis_perturb (L := L) hL0 hM (fun k : Fin N => S k.castSucc) (fun k => op k.castSucc)
        (fun k => op' k.castSucc) (fun loc => g (Fin.snoc (α := fun _ => Nat) loc i))
        (fun k => h1 k.castSucc) (fun k => h2 k.castSucc) (fun k => h3 k.castSucc)
        (fun loc hl => hg _ fun k => by
          refine Fin.lastCases ?_ (fun k => ?_) k
          · rw [Fin.snoc_last]; exact hi
          · rw [Fin.snoc_castSucc]; exact hl k)
    rw [axisByAxis, axisByAxis]
    have a1 := h2 (Fin.last N) _ _ fun i hi => (ih i hi).1
    have a2 := h3 (Fin.last N) _ _ fun i hi => (ih i hi).1
    have a3 := h1 (Fin.last N) _ _ _ fun i hi => (ih i hi).2
    refine ⟨by rw [pow_succ', mul_assoc]; exact a1, ?_⟩
    refine (abs_sub_le _ _ _).trans ((add_le_add a2 a3).trans (le_of_eq ?_))
    ring

/-- The piecewise linear interpolant of `(p i, f i)` varies at most as fast as its steepest
piece. -/
theorem linPiece_lipschitz {n : Nat} {p f : Nat → K} (hi : Incr n p) {S : K}
    (hS : ∀ i, i + 1 < n → |f (i + 1) - f i| ≤ S * (p (i + 1) - p i)) {x z : K} {c d : Nat}
    (hc : InCell n p x c) (hd : InCell n p z d) (hxz : x ≤ z) :
    |linPiece p f d z - linPiece p f c x| ≤ S * (z - x) := by
  have hid : ∀ e (w : K), e + 1 < n → linPiece p p e w = w := fun e w he => by
    have : p (e + 1) - p e ≠ 0 := (sub_pos.2 (hi e he)).ne'
    unfold linPiece
    rw [div_mul_cancel₀ _ this]; ring
  have hlin : ∀ (a : K) e (w : K), e + 1 < n →
      linPiece p (fun i => a * f i + S * p i) e w = a * linPiece p f e w + S * w := by
    intro a e w he
    have h1 := hid e w he
    have : linPiece p (fun i => a * f i + S * p i) e w =
        a * linPiece p f e w + S * linPiece p p e w := by unfold linPiece; ring
    rw [this, h1]
  have hmono : ∀ a : K, (a = 1 ∨ a = -1) → ∀ i, i + 1 < n →
      a * f i + S * p i ≤ a * f (i + 1) + S * p (i + 1) := by
    intro a ha i hin
    have := abs_le.1 (hS i hin)
    rcases ha with rfl | rfl <;> linarith
  have h1 := linPiece_mono hi (hmono 1 (.inl rfl)) hxz hc hd
  have h2 := linPiece_mono hi (hmono (-1) (.inr rfl)) hxz hc hd
  rw [hlin _ _ _ hc.1, hlin _ _ _ hd.1] at h1 h2
  rw [abs_le]
  constructor <;> linarith

/-! ### One axis -/

variable {T : Type} [FloatOps T] {val : T → K} {fin : T → Prop} {u η Ω : K}

theorem positionError_nonneg (hu : 0 ≤ u) (hη : 0 ≤ η) {Q : K} (hQ : 0 ≤ Q) :
    0 ≤ positionError u η Q := by unfold positionError; positivity

theorem nodeError_nonneg (hu : 0 ≤ u) (hη : 0 ≤ η) {A : K} (hA : 0 ≤ A) :
    0 ≤ nodeError u η A := by unfold nodeError; positivity

/-- The computed coordinate of a node. -/
theorem rounds_node (h : Rounds val fin u η Ω) (fma : Bool) {s st f : T} {A c : K} (hs : fin s)
    (hst : fin st) (hf : fin f) (hfv : val f = c) (hA0 : |val s| ≤ A) (hA : |val s + val st * c| ≤ A)
    (hΩ : 2 * (1 + u) * A + η ≤ Ω) :
    fin (if fma then mulAdd st f s else s +. st *. f) ∧
      |val (if fma then mulAdd st f s else s +. st *. f) - (val s + val st * c)| ≤
        nodeError u η A := by
  have hu := h.u_nonneg
  have hη := h.η_nonneg
  have hAn : 0 ≤ A := (abs_nonneg _).trans hA0
  have huA : 0 ≤ u * A := by positivity
  have hhc : |val st * c| ≤ 2 * A := by
    have := abs_sub (val s + val st * c) (val s)
    rw [add_sub_cancel_left] at this
    linarith
  cases fma with
  | true =>
    have := h.mulAdd st f s hst hf hs (by rw [hfv, add_comm]; nlinarith)
    rw [hfv, add_comm (val st * c)] at this
    simp only [if_true]
    refine ⟨this.1, this.2.trans ?_⟩
    have h1 : u * |val s + val st * c| ≤ u * A := by gcongr
    unfold nodeError
    nlinarith [mul_nonneg hu huA, mul_nonneg hu hη]
  | false =>
    simp only [Bool.false_eq_true, if_false]
    have hm := h.mul st f hst hf (by rw [hfv]; nlinarith)
    rw [hfv] at hm
    have h1 : u * |val st * c| ≤ u * (2 * A) := by gcongr
    have hm2 : |val (st *. f) - val st * c| ≤ 2 * (u * A) + η := by linarith [hm.2]
    have hsum : |val s + val (st *. f)| ≤ A + (2 * (u * A) + η) := by
      have := abs_add_le (val s + val st * c) (val (st *. f) - val st * c)
      rw [show val s + val st * c + (val (st *. f) - val st * c) = val s + val (st *. f) by ring]
        at this
      linarith
    have ha := h.add s (st *. f) hs hm.1 (by nlinarith)
    refine ⟨ha.1, ?_⟩
    have h2 : u * |val s + val (st *. f)| ≤ u * (A + (2 * (u * A) + η)) := by gcongr
    have := abs_add_le (val (s +. st *. f) - (val s + val (st *. f))) (val (st *. f) - val st * c)
    rw [show val (s +. st *. f) - (val s + val (st *. f)) + (val (st *. f) - val st * c) =
      val (s +. st *. f) - (val s + val st * c) by ring] at this
    unfold nodeError
    nlinarith [ha.2]

/-- A computed quotient `(x - a) / st`, if `a` approximates `b` up to `τ`. -/
theorem rounds_quot (h : Rounds val fin u η Ω) {x a st : T} {b R τ : K} (hx : fin x) (ha : fin a)
    (hst : fin st) (hpos : 0 < val st) (hab : |val a - b| ≤ τ) (hxa : |val x - b| + τ ≤ Ω)
    (hR : |(val x - b) / val st| ≤ R) (hΩ : (1 + u) * (R + τ / val st) ≤ Ω) :
    fin ((x -. a) /. st) ∧
      |val ((x -. a) /. st) - (val x - b) / val st| ≤
        (2 * u + u ^ 2) * R + (1 + u) ^ 2 * (τ / val st) + η := by
  have hu := h.u_nonneg
  have hη := h.η_nonneg
  have hτ : 0 ≤ τ := (abs_nonneg _).trans hab
  have h1 : |val x - val a| ≤ |val x - b| + τ := by
    have := abs_sub_le (val x) b (val a)
    rw [abs_sub_comm b] at this
    linarith
  have hd := h.sub x a hx ha (h1.trans hxa)
  set q := (val x - b) / val st with hq
  have hqx : |val x - b| = |q| * val st := by
    rw [hq, abs_div, abs_of_pos hpos, div_mul_cancel₀ _ hpos.ne']
  have hτs : τ = τ / val st * val st := (div_mul_cancel₀ _ hpos.ne').symm
  have hτ0 : 0 ≤ τ / val st := by positivity
  set σ := τ / val st
  have e1 : |val (x -. a) - (val x - b)| ≤ (u * |q| + (1 + u) * σ) * val st := by
    have h2 := abs_add_le (val (x -. a) - (val x - val a)) (b - val a)
    rw [show val (x -. a) - (val x - val a) + (b - val a) = val (x -. a) - (val x - b) by ring,
      abs_sub_comm b] at h2
    have h3 : u * |val x - val a| ≤ u * (|val x - b| + τ) := by gcongr
    rw [hqx, hτs] at h3
    rw [hτs] at hab
    nlinarith [hd.2]
  have e2 : |val (x -. a) / val st - q| ≤ u * |q| + (1 + u) * σ := by
    rw [hq, ← sub_div, abs_div, abs_of_pos hpos, div_le_iff₀ hpos]
    exact e1
  have e3 : |val (x -. a) / val st| ≤ (1 + u) * (|q| + σ) := by
    have := abs_add_le (val (x -. a) / val st - q) q
    rw [sub_add_cancel] at this
    nlinarith
  have hdiv := h.div (x -. a) st hd.1 hst hpos.ne' (e3.trans (le_trans (by gcongr) hΩ))
  refine ⟨hdiv.1, ?_⟩
  have h4 := abs_sub_le (val ((x -. a) /. st)) (val (x -. a) / val st) q
  have h5 : u * |val (x -. a) / val st| ≤ u * ((1 + u) * (|q| + σ)) := by gcongr
  have h6 : (2 * u + u ^ 2) * |q| ≤ (2 * u + u ^ 2) * R := by gcongr
  nlinarith [hdiv.2]

/-- The cell and the weight computed on a regular axis: the cell contains a point `s + step * q'`
whose position differs from that of the observation by at most `δ`, and the weight is accurate with
respect to that cell. -/
theorem rounds_regular_axis (h : Rounds val fin u η Ω) {n : Nat} (hwh : ExactWhole val fin n)
    (fma : Bool) {dim : Nat} (hdn : dim ≤ n) (h2 : 2 ≤ dim) {s st x : T} (hs : fin s) (hst : fin st)
    (hx : fin x) (hpos : 0 < val st) {A lam Q R δ : K} (hlam : 0 ≤ lam) (hA0 : |val s| ≤ A)
    (hA1 : |val s + val st * ((dim - 1 : Nat) : K)| ≤ A)
    (hnear : NearRange dim (fun i : Nat => val s + val st * (i : K)) lam (val x))
    (hQ : Q = ((dim - 1 : Nat) : K) + lam) (hδ : δ = positionError u η Q) (hR : R = 1 + lam + δ)
    (hΩ1 : 2 * (1 + u) * A + η ≤ Ω) (hΩ2 : |val x| + A + nodeError u η A ≤ Ω)
    (hΩ3 : (1 + u) * Q ≤ Ω) (hΩ4 : (1 + u) * (R + nodeError u η A / val st) ≤ Ω)
    (hfit : Q + δ + 1 ≤ 2 ^ 63) :
    ∃ (c : Nat) (w : T) (q' : K), linRegAxis fma dim s st x = some (c, w) ∧
      InCell dim (fun i : Nat => val s + val st * (i : K)) (val s + val st * q') c ∧
      |q' - (val x - val s) / val st| ≤ δ ∧
      -(lam + δ) ≤ (val x - val s) / val st - c ∧ (val x - val s) / val st - c ≤ 1 + lam + δ ∧
      fin w ∧ |val w - ((val x - val s) / val st - c)| ≤ regularWeightError u η A (val st) R := by
  have hu := h.u_nonneg
  have hη := h.η_nonneg
  have hA : 0 ≤ A := (abs_nonneg _).trans hA0
  have hτ := nodeError_nonneg hu hη hA
  have hd1 : (1 : K) ≤ ((dim - 1 : Nat) : K) := by exact_mod_cast (by omega : 1 ≤ dim - 1)
  -- the exact position
  set q := (val x - val s) / val st with hq
  have hqx : val x = val s + val st * q := by rw [hq, mul_div_cancel₀ _ hpos.ne']; ring
  have hq1 : -lam ≤ q := by
    have := hnear.1
    simp only [Nat.cast_zero, Nat.cast_one, mul_zero, mul_one, add_zero] at this
    rw [hqx] at this
    have : val st * -lam ≤ val st * q := by linarith
    exact le_of_mul_le_mul_left this hpos
  have hq2 : q ≤ ((dim - 1 : Nat) : K) + lam := by
    have := hnear.2
    simp only at this
    rw [hqx] at this
    have e : (((dim - 1 : Nat) : K)) = ((dim - 2 : Nat) : K) + 1 := by
      rw [show dim - 1 = dim - 2 + 1 by omega]; push_cast; rfl
    have : val st * q ≤ val st * (((dim - 1 : Nat) : K) + lam) := by
      rw [e] at this ⊢
      linarith
    exact le_of_mul_le_mul_left this hpos
  have hqQ : |q| ≤ Q := by rw [hQ, abs_le]; constructor <;> linarith
  have hQ0 : 0 ≤ Q := (abs_nonneg _).trans hqQ
  have hδ0 : 0 ≤ δ := by rw [hδ]; exact positionError_nonneg hu hη hQ0
  -- the computed position
  have hpq := rounds_quot h (b := val s) (τ := 0) (R := Q) hx hs hst hpos (by simp)
    (by have := abs_sub (val x) (val s); linarith) hqQ (by simpa using hΩ3)
  have hpe : |val ((x -. s) /. st) - q| ≤ δ := by
    have := hpq.2
    rw [zero_div, mul_zero, add_zero] at this
    rw [hδ]; exact this
  set q' := val ((x -. s) /. st) with hq'
  have hb := abs_le.1 hpe
  have hbq := abs_le.1 hqQ
  have hmin : isizeMin ≤ ⌊q'⌋ := by
    rw [Int.le_floor]
    simp only [isizeMin]
    push_cast
    linarith
  have hmax : ⌊q'⌋ ≤ isizeMax := by
    have h1 := Int.floor_le q'
    have h2 : (⌊q'⌋ : K) ≤ (isizeMax : Int) := by
      simp only [isizeMax]
      push_cast
      linarith
    exact_mod_cast h2
  have hraw : rawCell s st x = some ⌊q'⌋ := hwh.toIsize _ hpq.1 hmin hmax
  have hcb := clampIdx_le ⌊q'⌋ (dim - 2)
  obtain ⟨f, hf1, hf2, hf3⟩ := hwh.ofUsize (clampIdx ⌊q'⌋ (dim - 2)) (by omega)
  have hcell : InCell dim (fun i : Nat => val s + val st * (i : K)) (val s + val st * q')
      (clampIdx ⌊q'⌋ (dim - 2)) := by
    have := regular_inCell (start := val s) (step := val st) (x := val s + val st * q') hpos h2
    rwa [add_sub_cancel_left, mul_div_cancel_left₀ _ hpos.ne'] at this
  set c := clampIdx ⌊q'⌋ (dim - 2) with hc
  have ht1 : -(lam + δ) ≤ q - c := by
    rcases hcell.2.1 with h0 | h0
    · rw [h0, Nat.cast_zero]; linarith
    · have : (c : K) ≤ q' := le_of_mul_le_mul_left (by simpa using h0) hpos
      linarith
  have ht2 : q - c ≤ 1 + lam + δ := by
    rcases hcell.2.2 with h0 | h0
    · have e : (((dim - 1 : Nat) : K)) = (c : K) + 1 := by
        rw [show dim - 1 = c + 1 by omega]; push_cast; rfl
      rw [e] at hq2
      linarith
    · have : q' ≤ ((c + 1 : Nat) : K) := le_of_mul_le_mul_left (by simpa using h0) hpos
      push_cast at this
      linarith
  have hcK : (c : K) ≤ ((dim - 1 : Nat) : K) := by exact_mod_cast (by omega : c ≤ dim - 1)
  have hc0 : (0 : K) ≤ c := Nat.cast_nonneg c
  have hAc : |val s + val st * (c : K)| ≤ A := by
    have h1 := abs_le.1 hA0
    have h3 := abs_le.1 hA1
    have h4 : val st * (c : K) ≤ val st * ((dim - 1 : Nat) : K) := by gcongr
    have h5 : 0 ≤ val st * (c : K) := by positivity
    rw [abs_le]
    constructor <;> linarith
  have hnode := rounds_node h fma hs hst hf2 hf3 hA0 hAc hΩ1
  have hxn : (val x - (val s + val st * (c : K))) / val st = q - c := by
    rw [hqx]; field_simp; ring
  have hw := rounds_quot h (b := val s + val st * (c : K)) (τ := nodeError u η A) (R := R) hx hnode.1
    hst hpos hnode.2 (by have := abs_sub (val x) (val s + val st * (c : K)); linarith)
    (by rw [hxn, hR, abs_le]; constructor <;> linarith) hΩ4
  rw [hxn] at hw
  refine ⟨c, _, q', ?_, hcell, hpe, ht1, ht2, hw.1, hw.2⟩
  unfold linRegAxis
  rw [hraw]
  simp only [← hc]
  rw [hf1]

/-- Blending in the computed cell with the computed weight, instead of evaluating the piecewise
linear interpolant of the data. -/
theorem regular_rule_close {n : Nat} {s h x q' w E δ B : K} {c d : Nat} (hh : 0 < h)
    (hd : InCell n (fun i : Nat => s + h * (i : K)) x d)
    (hc : InCell n (fun i : Nat => s + h * (i : K)) (s + h * q') c)
    (hq : |q' - (x - s) / h| ≤ δ) (hw : |w - ((x - s) / h - c)| ≤ E) {f : Nat → K}
    (hf : ∀ i < n, |f i| ≤ B) :
    |(1 - w) * f c + w * f (c + 1) - linPiece (fun i : Nat => s + h * (i : K)) f d x| ≤
      (2 * E + 4 * δ) * B := by
  have hB : 0 ≤ B := (abs_nonneg _).trans (hf c (by have := hc.1; omega))
  have hincr : Incr n fun i : Nat => s + h * (i : K) := fun i _ => by
    show s + h * (i : K) < s + h * ((i + 1 : Nat) : K)
    push_cast; linarith
  have hdf : ∀ i, i + 1 < n → |f (i + 1) - f i| ≤ 2 * B := fun i hi => by
    have := abs_sub (f (i + 1)) (f i)
    have := hf i (by omega)
    have := hf (i + 1) hi
    linarith
  have hlip : ∀ {x z : K} {c d : Nat}, InCell n (fun i : Nat => s + h * (i : K)) x c →
      InCell n (fun i : Nat => s + h * (i : K)) z d → x ≤ z →
      |linPiece (fun i : Nat => s + h * (i : K)) f d z -
        linPiece (fun i : Nat => s + h * (i : K)) f c x| ≤ 2 * B / h * (z - x) :=
    fun hc hd => linPiece_lipschitz hincr (fun i hi => by
      have e : s + h * ((i + 1 : Nat) : K) - (s + h * (i : K)) = h := by push_cast; ring
      show _ ≤ 2 * B / h * (s + h * ((i + 1 : Nat) : K) - (s + h * (i : K)))
      rw [e, div_mul_cancel₀ _ hh.ne']
      exact hdf i hi) hc hd
  set q := (x - s) / h with hqd
  have hx : x = s + h * q := by rw [hqd, mul_div_cancel₀ _ hh.ne']; ring
  have h1 : |linPiece (fun i : Nat => s + h * (i : K)) f c (s + h * q') -
      linPiece (fun i : Nat => s + h * (i : K)) f d x| ≤ 2 * δ * B := by
    have key : 2 * B / h * |s + h * q' - x| ≤ 2 * δ * B := by
      rw [hx, show s + h * q' - (s + h * q) = h * (q' - q) by ring, abs_mul, abs_of_pos hh,
        ← mul_assoc, div_mul_cancel₀ _ hh.ne']
      nlinarith
    rcases le_total x (s + h * q') with hle | hle
    · have := hlip hd hc hle
      rw [abs_of_nonneg (sub_nonneg.2 hle)] at key
      linarith
    · have := hlip hc hd hle
      rw [abs_sub_comm, abs_of_nonneg (sub_nonneg.2 hle)] at key
      rw [abs_sub_comm]
      linarith
  have h2 : (1 - w) * f c + w * f (c + 1) -
      linPiece (fun i : Nat => s + h * (i : K)) f c (s + h * q') =
      (w - (q - c) + (q - q')) * (f (c + 1) - f c) := by
    have e : linPiece (fun i : Nat => s + h * (i : K)) f c (s + h * q') =
        f c + (q' - c) * (f (c + 1) - f c) := by
      unfold linPiece
      simp only
      rw [show s + h * q' - (s + h * (c : K)) = h * (q' - c) by ring,
        show s + h * ((c + 1 : Nat) : K) - (s + h * (c : K)) = h by push_cast; ring,
        mul_div_cancel_left₀ _ hh.ne']
    rw [e]; ring
  have h3 : |(w - (q - c) + (q - q')) * (f (c + 1) - f c)| ≤ (E + δ) * (2 * B) := by
    rw [abs_mul]
    have := abs_add_le (w - (q - c)) (q - q')
    rw [abs_sub_comm] at hq
    exact mul_le_mul (by linarith) (hdf c hc.1) (abs_nonneg _)
      (by have := abs_nonneg (w - (q - c)); have := abs_nonneg (q - q'); linarith)
  have h4 := abs_sub_le ((1 - w) * f c + w * f (c + 1))
    (linPiece (fun i : Nat => s + h * (i : K)) f c (s + h * q'))
    (linPiece (fun i : Nat => s + h * (i : K)) f d x)
  rw [h2] at h4
  linarith

end
end Interpn
