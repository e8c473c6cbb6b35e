import Verif.Lemmas.DyadicAxis
import Verif.Lemmas.EvalCubic
import Verif.Lemmas.ExactCubic
import Verif.Props.Accuracy

/-! Cubic interpolation of fixed-point numbers on regular axes. -/

set_option autoImplicit false

namespace Interpn
open FloatOps Ieee

variable {f : Format}

/-- The float `a` is the number `q`, a multiple of `2^m` of size at most `b`. -/
structure Fix (m : Int) (b : ℚ) (a : Ieee f) (q : ℚ) : Prop where
  fin : Finite a
  eq : val a = q
  mul : Multiple m q
  le : |q| ≤ b

section
variable {m₀ m m' : Int} {R b b' b'' : ℚ} {a a' a'' : Ieee f} {q q' q'' : ℚ}

theorem Fix.mono (h : Fix m b a q) (hm : m' ≤ m) (hb : b ≤ b') : Fix m' b' a q :=
  ⟨h.fin, h.eq, h.mul.of_le hm, h.le.trans hb⟩

theorem Fix.add (hr : Room f m₀ R) (h : Fix m b a q) (h' : Fix m b' a' q') (hm : m₀ ≤ m)
    (hb : b + b' ≤ R) : Fix m (b + b') (a +. a') (q + q') := by
  have hle : |q + q'| ≤ b + b' := (abs_add_le _ _).trans (add_le_add h.le h'.le)
  have hmul := h.mul.add h'.mul
  have := hr.add h.fin h'.fin (by rw [h.eq, h'.eq]; exact hmul.of_le hm)
    (by rw [h.eq, h'.eq]; exact hle.trans hb)
  exact ⟨this.1, by rw [this.2, h.eq, h'.eq], hmul, hle⟩

theorem Fix.sub (hr : Room f m₀ R) (h : Fix m b a q) (h' : Fix m b' a' q') (hm : m₀ ≤ m)
    (hb : b + b' ≤ R) : Fix m (b + b') (a -. a') (q - q') := by
  have hle : |q - q'| ≤ b + b' := (abs_sub _ _).trans (add_le_add h.le h'.le)
  have hmul := h.mul.sub h'.mul
  have := hr.sub h.fin h'.fin (by rw [h.eq, h'.eq]; exact hmul.of_le hm)
    (by rw [h.eq, h'.eq]; exact hle.trans hb)
  exact ⟨this.1, by rw [this.2, h.eq, h'.eq], hmul, hle⟩

theorem Fix.prod (hr : Room f m₀ R) (h : Fix m b a q) (h' : Fix m' b' a' q') (hm : m₀ ≤ m + m')
    (hb : b * b' ≤ R) : Fix (m + m') (b * b') (a *. a') (q * q') := by
  have hle : |q * q'| ≤ b * b' := by
    rw [abs_mul]
    exact mul_le_mul h.le h'.le (abs_nonneg _) ((abs_nonneg _).trans h.le)
  have hmul := h.mul.mul h'.mul
  have := hr.mul h.fin h'.fin (by rw [h.eq, h'.eq]; exact hmul.of_le hm)
    (by rw [h.eq, h'.eq]; exact hle.trans hb)
  exact ⟨this.1, by rw [this.2, h.eq, h'.eq], hmul, hle⟩

theorem Fix.mulAdd (hr : Room f m₀ R) (h : Fix m b a q) (h' : Fix m' b' a' q')
    (h'' : Fix (m + m') b'' a'' q'') (hm : m₀ ≤ m + m') (hb : b * b' + b'' ≤ R) :
    Fix (m + m') (b * b' + b'') (FloatOps.mulAdd a a' a'') (q * q' + q'') := by
  have hle : |q * q' + q''| ≤ b * b' + b'' := by
    refine (abs_add_le _ _).trans (add_le_add ?_ h''.le)
    rw [abs_mul]
    exact mul_le_mul h.le h'.le (abs_nonneg _) ((abs_nonneg _).trans h.le)
  have hmul := (h.mul.mul h'.mul).add h''.mul
  have := hr.mulAdd h.fin h'.fin h''.fin (by rw [h.eq, h'.eq, h''.eq]; exact hmul.of_le hm)
    (by rw [h.eq, h'.eq, h''.eq]; exact hle.trans hb)
  exact ⟨this.1, by rw [this.2, h.eq, h'.eq, h''.eq], hmul, hle⟩

theorem Fix.neg (h : Fix m b a q) : Fix m b (-. a) (-q) := by
  have := (exactIfFloat f).neg a h.fin
  refine ⟨this.1, by rw [this.2, h.eq], ?_, by rw [abs_neg]; exact h.le⟩
  obtain ⟨z, rfl⟩ := h.mul
  exact ⟨-z, by push_cast; ring⟩

/-- The constant two. -/
theorem two_eq : Finite ((one : Ieee f) +. one) ∧ val ((one : Ieee f) +. one) = 2 := by
  obtain ⟨c, hc, hv⟩ := two_float (f := f)
  have := (exactIfFloat f).add one one c one_eq.1 one_eq.1 hc (by rw [one_eq.2, hv]; norm_num)
  rwa [hv] at this

theorem Fix.halve (hr : Room f m₀ R) (h : Fix m b a q) (hm : m₀ ≤ m - 1) (hb : b ≤ R) :
    Fix (m - 1) (b / 2) (a /. (one +. one)) (q / 2) := by
  have hmul : Multiple (m - 1) (q / 2) := by
    have := h.mul.div_pow (e' := 1)
    rwa [zpow_one] at this
  have hle : |q / 2| ≤ b / 2 := by
    rw [abs_div, abs_two]
    have := h.le
    linarith
  have h0 := (abs_nonneg _).trans h.le
  have := hr.div h.fin two_eq.1 (by rw [two_eq.2]; norm_num)
    (by rw [two_eq.2, h.eq]; exact hmul.of_le hm) (by rw [two_eq.2, h.eq]; linarith)
  exact ⟨this.1, by rw [this.2, two_eq.2, h.eq], hmul, hle⟩

end

/-- The Hermite polynomial in Horner form. -/
theorem hermite_dyadic {m : Int} {s : Nat} {B : ℚ} (hB : 0 ≤ B) (hr : Room f (m - 3 * s) (32 * B))
    (fma : Bool) {t y0 dy k0 k1 : Ieee f} {t' y0' dy' k0' k1' : ℚ} (ht : Fix (-(s : Int)) 1 t t')
    (hy : Fix m B y0 y0') (hd : Fix m (2 * B) dy dy') (h0 : Fix m B k0 k0')
    (h1 : Fix m (5 * B) k1 k1') :
    Fix (m - 3 * s) (32 * B) (hermite fma t y0 dy k0 k1)
      (y0' + t' * (k0' + t' * ((3 * dy' - 2 * k0' - k1') + t' * (k0' + k1' - 2 * dy')))) := by
  have hm : m - 3 * (s : Int) ≤ m := by omega
  have ha := h0.sub hr hd hm (by linarith)
  have hb := h1.neg.add hr hd hm (by linarith)
  have hc1 := hd.add hr ha hm (by linarith)
  rw [show dy' + (k0' - dy') = k0' by ring] at hc1
  have hc1 : Fix m B (dy +. (k0 -. dy)) k0' := ⟨hc1.fin, hc1.eq, hc1.mul, h0.le⟩
  have haa := ha.add hr ha hm (by linarith)
  have hc2 := hb.sub hr haa hm (by linarith)
  have hc3 := ha.sub hr hb hm (by linarith)
  unfold hermite
  cases fma with
  | true =>
    simp only [if_true]
    have e1 := hc3.mulAdd hr ht (hc2.mono (m' := m + -(s : Int)) (by omega) le_rfl) (by omega)
      (by linarith)
    have e2 := e1.mulAdd hr ht (hc1.mono (m' := m + -(s : Int) + -(s : Int)) (by omega) le_rfl)
      (by omega) (by linarith)
    have e3 := e2.mulAdd hr ht (hy.mono (m' := m + -(s : Int) + -(s : Int) + -(s : Int)) (by omega)
      le_rfl) (by omega) (by linarith)
    have e4 := e3.mono (m' := m - 3 * s) (b' := 32 * B) (by omega) (by linarith)
    refine ⟨e4.fin, e4.eq.trans (by ring), ?_, ?_⟩
    · have := e4.mul
      convert this using 1
      ring
    · have := e4.le
      convert this using 2
      ring
  | false =>
    simp only [Bool.false_eq_true, if_false]
    have p1 := ht.prod hr hc3 (by omega) (by linarith)
    have e1 := (hc2.mono (m' := -(s : Int) + m) (by omega) le_rfl).add hr p1 (by omega) (by linarith)
    have p2 := ht.prod hr e1 (by omega) (by linarith)
    have e2 := (hc1.mono (m' := -(s : Int) + (-(s : Int) + m)) (by omega) le_rfl).add hr p2
      (by omega) (by linarith)
    have p3 := ht.prod hr e2 (by omega) (by linarith)
    have e3 := (hy.mono (m' := -(s : Int) + (-(s : Int) + (-(s : Int) + m))) (by omega)
      le_rfl).add hr p3 (by omega) (by linarith)
    have e4 := e3.mono (m' := m - 3 * s) (b' := 32 * B) (by omega) (by linarith)
    refine ⟨e4.fin, e4.eq.trans (by ring), ?_, ?_⟩
    · have := e4.mul
      convert this using 1
      ring
    · have := e4.le
      convert this using 2
      ring

theorem naturalK1_dyadic {m₀ m : Int} {B : ℚ} (hr : Room f m₀ (32 * B)) (hm : m₀ ≤ m)
    (hB : 0 ≤ B) (fma : Bool) {dy k0 : Ieee f} {dy' k0' : ℚ} (hd : Fix m (2 * B) dy dy')
    (h0 : Fix m B k0 k0') :
    Fix m (5 * B) (naturalK1 fma (one +. one) dy k0) (2 * dy' - k0') := by
  have h2 : Fix (f := f) 0 2 (one +. one) 2 := ⟨two_eq.1, two_eq.2, ⟨2, by norm_num⟩, by norm_num⟩
  unfold naturalK1
  cases fma with
  | true =>
    have := h2.mulAdd hr hd (h0.neg.mono (m' := 0 + m) (by omega) le_rfl) (by omega) (by linarith)
    rw [if_pos rfl]
    have := this.mono (m' := m) (b' := 5 * B) (by omega) (by linarith)
    rwa [← sub_eq_add_neg] at this
  | false =>
    have p := h2.prod hr hd (by omega) (by linarith)
    have := p.sub hr (h0.mono (m' := 0 + m) (by omega) le_rfl) (by omega) (by linarith)
    rw [if_neg (by decide)]
    exact this.mono (m' := m) (b' := 5 * B) (by omega) (by linarith)

/-- `interp_inner` on four fixed-point values, for observations in the grid range. The last line uses
exact arithmetic. -/
theorem cubicInner_dyadic {m : Int} {s : Nat} {B : ℚ}
    (hr : Room f (m - 1 - 3 * s) (32 * B)) (fma fmaLow lin : Bool) {v : Fin 4 → Ieee f}
    {v' : Fin 4 → ℚ} (hv : ∀ i, Fix m B (v i) (v' i)) {t : Ieee f} {t' : ℚ} {sat : Saturation}
    (ht : Fix (-(s : Int)) 2 t t') (hs : s ≤ f.p)
    (hsat : (sat = .none ∧ 0 ≤ t' ∧ t' ≤ 1) ∨ (sat = .insideLow ∧ -1 ≤ t' ∧ t' ≤ 0) ∨
      ((sat = .insideHigh ∨ sat = .outsideHigh) ∧ 1 ≤ t' ∧ t' ≤ 2)) :
    Finite (cubicInnerRegular fma fmaLow v t sat lin) ∧
      Multiple (m - 1 - 3 * s) (val (cubicInnerRegular fma fmaLow v t sat lin)) ∧
      val (cubicInnerRegular fma fmaLow v t sat lin) =
        @cubicInnerRegular ℚ (exactOps ℚ) false false v' t' sat lin := by
  have hB : 0 ≤ B := (abs_nonneg _).trans (hv 0).le
  have hm1 : m - 1 - 3 * (s : Int) ≤ m - 1 := by omega
  have hv1 := fun i => (hv i).mono (m' := m - 1) (b' := B) (by omega) le_rfl
  have hdiff : ∀ i k, Fix (m - 1) (2 * B) (v i -. v k) (v' i - v' k) := fun i k =>
    ((hv1 i).sub hr (hv1 k) hm1 (by linarith)).mono le_rfl (by linarith)
  have hhalf : ∀ i k, Fix (m - 1) B ((v i -. v k) /. (one +. one)) ((v' i - v' k) / 2) := fun i k => by
    have h1 := (hv i).sub hr (hv k) (by omega) (by linarith)
    exact (h1.halve hr (by omega) (by linarith)).mono le_rfl (by linarith)
  have hhalfn : ∀ i k, Fix (m - 1) B ((-. (v i -. v k)) /. (one +. one)) (-(v' i - v' k) / 2) :=
    fun i k => by
      have h1 := ((hv i).sub hr (hv k) (by omega) (by linarith)).neg
      exact (h1.halve hr (by omega) (by linarith)).mono le_rfl (by linarith)
  have hone : Fix (f := f) (-(s : Int)) 1 one 1 :=
    ⟨one_eq.1, one_eq.2, by
      have := (multiple_int 1).of_le (e' := -(s : Int)) (by omega)
      simpa using this, by norm_num⟩
  have hroom1 := room_unit (f := f) hs
  -- from a Hermite polynomial to the conclusion
  have fin : ∀ {a : Ieee f} {q q' : ℚ}, Fix (m - 1 - 3 * s) (32 * B) a q → q = q' →
      Finite a ∧ Multiple (m - 1 - 3 * s) (val a) ∧ val a = q' := fun h e =>
    ⟨h.fin, by rw [h.eq]; exact h.mul, h.eq.trans e⟩
  rcases hsat with ⟨rfl, h1, h2⟩ | ⟨rfl, h1, h2⟩ | ⟨hcase, h1, h2⟩
  · refine fin (hermite_dyadic hB hr fma (t' := t') ⟨ht.fin, ht.eq, ht.mul, ?_⟩ (hv1 1) (hdiff 2 1)
      (hhalf 2 0) ((hhalf 3 1).mono le_rfl (by linarith))) ?_
    · rw [abs_le]; constructor <;> linarith
    · let _ := exactOps ℚ
      simp only [cubicInnerRegular, hermite_exact]
      simp only [exact_sub, exact_div, exact_add, exact_one]
      ring
  · have hn := ht.neg
    have hk1 := naturalK1_dyadic hr hm1 hB fma (hdiff 0 1) (hhalfn 2 0)
    refine fin (hermite_dyadic hB hr fma (t' := -t') ⟨hn.fin, hn.eq, hn.mul, ?_⟩ (hv1 1) (hdiff 0 1)
      (hhalfn 2 0) hk1) ?_
    · rw [abs_le]; constructor <;> linarith
    · let _ := exactOps ℚ
      simp only [cubicInnerRegular, hermite_exact, naturalK1_exact]
      simp only [exact_sub, exact_div, exact_add, exact_one, exact_neg]
      ring
  · -- `t - 1` is exact, its size is at most 1
    have htm : Multiple (-(s : Int)) (t' - 1) := ht.mul.sub hone.mul
    have htb : |t' - 1| ≤ 1 := by rw [abs_le]; constructor <;> linarith
    have hts := hroom1.sub ht.fin hone.fin (by rw [ht.eq, hone.eq]; exact htm)
      (by rw [ht.eq, hone.eq]; exact htb)
    have ht1 : Fix (-(s : Int)) 1 (t -. one) (t' - 1) :=
      ⟨hts.1, by rw [hts.2, ht.eq, hone.eq], htm, htb⟩
    have hk1 := naturalK1_dyadic hr hm1 hB fma (hdiff 3 2) (hhalf 3 1)
    have hherm := hermite_dyadic hB hr fma ht1 (hv1 2) (hdiff 3 2) (hhalf 3 1) hk1
    rcases hcase with rfl | rfl
    · refine fin hherm ?_
      let _ := exactOps ℚ
      simp only [cubicInnerRegular, hermite_exact, naturalK1_exact]
      simp only [exact_sub, exact_div, exact_add, exact_one]
      ring
    · cases lin with
      | false =>
        refine fin hherm ?_
        let _ := exactOps ℚ
        simp only [cubicInnerRegular, hermite_exact, naturalK1_exact, Bool.false_eq_true, if_false]
        simp only [exact_sub, exact_div, exact_add, exact_one]
        ring
      | true =>
        have htm2 : Multiple (-(s : Int)) (t' - 1 - 1) := htm.sub hone.mul
        have htb2 : |t' - 1 - 1| ≤ 1 := by rw [abs_le]; constructor <;> linarith
        have hts2 := hroom1.sub ht1.fin hone.fin (by rw [ht1.eq, hone.eq]; exact htm2)
          (by rw [ht1.eq, hone.eq]; exact htb2)
        have ht2 : Fix (-(s : Int)) 1 (t -. one -. one) (t' - 1 - 1) :=
          ⟨hts2.1, by rw [hts2.2, ht1.eq, hone.eq], htm2, htb2⟩
        have hlin : Fix (m - 1 - 3 * s) (32 * B) (linExtrap fma (v 3)
            (naturalK1 fma (one +. one) (v 3 -. v 2) ((v 3 -. v 1) /. (one +. one))) (t -. one))
            (v' 3 + (2 * (v' 3 - v' 2) - (v' 3 - v' 1) / 2) * (t' - 1 - 1)) := by
          unfold linExtrap
          cases fma with
          | true =>
            have := hk1.mulAdd hr ht2 ((hv1 3).mono (m' := m - 1 + -(s : Int)) (by omega) le_rfl)
              (by omega) (by linarith)
            rw [if_pos rfl]
            have := this.mono (m' := m - 1 - 3 * s) (b' := 32 * B) (by omega) (by linarith)
            rwa [add_comm] at this
          | false =>
            have p := hk1.prod hr ht2 (by omega) (by linarith)
            have := ((hv1 3).mono (m' := m - 1 + -(s : Int)) (by omega) le_rfl).add hr p (by omega)
              (by linarith)
            rw [if_neg (by decide)]
            exact this.mono (m' := m - 1 - 3 * s) (b' := 32 * B) (by omega) (by linarith)
        refine fin hlin ?_
        let _ := exactOps ℚ
        simp only [cubicInnerRegular, linExtrap_exact, naturalK1_exact, if_true]
        simp only [exact_sub, exact_div, exact_add, exact_one]
        ring

/-- The footprint on a regular axis. -/
theorem FixedRegular.footprint {j : Int} {s dim : Nat} {start step : Ieee f}
    (h : FixedRegular f j s dim start step) (h4 : 4 ≤ dim) (hd : (dim : Int) ≤ isizeMax)
    {x : Ieee f} (hx : Finite x) (hxm : Multiple j (val x))
    (hin : InRange dim (fun i : Nat => val start + val step * (i : ℚ)) (val x)) :
    let z := ⌊(val x - val start) / val step⌋
    let t' := (val x - (val start + val step * ((clampIdx (z - 1) (dim - 4) + 1 : Nat) : ℚ))) /
      val step
    ∃ t, cubRegAxis dim start step x =
        .ok (clampIdx (z - 1) (dim - 4), satRegular dim z, t) ∧
      Fix (-(s : Int)) 2 t t' ∧
      ((satRegular dim z = .none ∧ 0 ≤ t' ∧ t' ≤ 1) ∨
        (satRegular dim z = .insideLow ∧ -1 ≤ t' ∧ t' ≤ 0) ∨
        ((satRegular dim z = .insideHigh ∨ satRegular dim z = .outsideHigh) ∧ 1 ≤ t' ∧ t' ≤ 2)) := by
  intro z t'
  have hpos := h.step_pos
  have hroom := h.room
  have hspan := h.span
  obtain ⟨hraw, hq0, hq1⟩ := h.raw (by omega) hd hx hxm hin
  have hz0 : 0 ≤ z := Int.floor_nonneg.2 hq0
  have hz1 : z ≤ ((dim - 1 : Nat) : Int) := by
    rw [← Int.floor_natCast (R := ℚ) (dim - 1)]
    exact Int.floor_le_floor hq1
  set o := clampIdx (z - 1) (dim - 4) with ho
  have hob : o ≤ dim - 4 := clampIdx_le _ _
  obtain ⟨n, hn, hnf, hnv, hnm⟩ := h.node false (show o + 1 < dim by omega)
  simp only [Bool.false_eq_true, if_false] at hnf hnv
  have ht' : t' = (val x - val start) / val step - ((o : ℚ) + 1) := by
    show (val x - (val start + val step * ((o + 1 : Nat) : ℚ))) / val step = _
    push_cast
    field_simp
    ring
  have fl : (z : ℚ) ≤ (val x - val start) / val step := Int.floor_le _
  have lf : (val x - val start) / val step < z + 1 := Int.lt_floor_add_one _
  have hsat : (satRegular dim z = .none ∧ 0 ≤ t' ∧ t' ≤ 1) ∨
        (satRegular dim z = .insideLow ∧ -1 ≤ t' ∧ t' ≤ 0) ∨
        ((satRegular dim z = .insideHigh ∨ satRegular dim z = .outsideHigh) ∧ 1 ≤ t' ∧ t' ≤ 2) := by
    rw [ht']
    have hoz : (z = 0 ∧ (o : Int) = 0) ∨ (1 ≤ z ∧ z ≤ (dim : Int) - 3 ∧ (o : Int) = z - 1) ∨
        ((dim : Int) - 2 ≤ z ∧ (o : Int) = dim - 4) := by
      rw [ho]; unfold clampIdx
      omega
    rcases hoz with ⟨h1, h2⟩ | ⟨h1, h2, h3⟩ | ⟨h1, h2⟩
    · have e1 : (z : ℚ) = 0 := by exact_mod_cast h1
      have e2 : (o : ℚ) = 0 := by exact_mod_cast h2
      refine .inr (.inl ⟨?_, ?_, ?_⟩)
      · unfold satRegular; rw [if_neg (by omega), if_pos h1]
      · rw [e2]; linarith
      · rw [e2]; linarith
    · have e2 : (o : ℚ) = z - 1 := by exact_mod_cast h3
      refine .inl ⟨?_, ?_, ?_⟩
      · unfold satRegular
        rw [if_neg (by omega), if_neg (by omega), if_neg (by omega), if_neg (by omega)]
      · rw [e2]; linarith
      · rw [e2]; linarith
    · have e2 : (o : ℚ) = dim - 4 := by exact_mod_cast h2
      have e3 : ((dim - 1 : Nat) : ℚ) = dim - 1 := by
        rw [Nat.cast_sub (by omega)]; simp
      have e4 : ((dim : Int) : ℚ) - 2 ≤ z := by exact_mod_cast h1
      push_cast at e4
      rw [e3] at hq1
      refine .inr (.inr ⟨?_, ?_, ?_⟩)
      · unfold satRegular
        rw [if_neg (by omega), if_neg (by omega)]
        by_cases hh : (dim : Int) - 2 < z
        · right; rw [if_pos hh]
        · left; rw [if_neg hh, if_pos (by omega)]
      · rw [e2]; linarith
      · rw [e2]; linarith
  have htb : |t'| ≤ 2 := by
    rw [abs_le]
    rcases hsat with ⟨-, a, b⟩ | ⟨-, a, b⟩ | ⟨-, a, b⟩ <;> constructor <;> linarith
  have hdiff : val x - (val start + val step * ((o + 1 : Nat) : ℚ)) = t' * val step :=
    (div_mul_cancel₀ _ hpos.ne').symm
  have h2span : 2 * val step ≤ 2 ^ (j + (f.p : Int)) := by
    have : (2 : ℚ) ≤ ((dim - 1 : Nat) : ℚ) := by exact_mod_cast (by omega : 2 ≤ dim - 1)
    nlinarith
  have hxn := hroom.sub hx hnf (by rw [hnv]; exact hxm.sub hnm)
    (by
      rw [hnv, hdiff, abs_mul, abs_of_pos hpos]
      exact (mul_le_mul_of_nonneg_right htb hpos.le).trans h2span)
  have htm : Multiple (-(s : Int)) t' := by
    show Multiple _ ((val x - (val start + val step * ((o + 1 : Nat) : ℚ))) / val step)
    rw [h.spacing] at hnm ⊢
    exact (hxm.sub hnm).div_pow.of_le (by omega)
  have hroom2 : Room f (-(s : Int)) (2 ^ (-(s : Int) + f.p)) := by
    have := f.two_le_p
    have := f.p_le_emax
    have := h.digits (by omega)
    exact room_pow (by unfold Format.emin; omega) le_rfl (by omega)
  have h2 : (2 : ℚ) ≤ 2 ^ (-(s : Int) + f.p) := by
    have hfew : ((dim - 1 : Nat) : ℚ) * 2 ^ s ≤ 2 ^ f.p := by exact_mod_cast h.few
    rw [zpow_add₀ (by norm_num), zpow_neg, zpow_natCast, zpow_natCast, inv_mul_eq_div,
      le_div_iff₀ (by positivity)]
    refine le_trans ?_ hfew
    refine mul_le_mul_of_nonneg_right ?_ (by positivity)
    exact_mod_cast (by omega : 2 ≤ dim - 1)
  have hv : (val (x -. (start +. step *. n))) / val step = t' := by rw [hxn.2, hnv]
  have hq := hroom2.div hxn.1 h.finite.2 hpos.ne' (by rw [hv]; exact htm)
    (by rw [hv]; exact htb.trans h2)
  refine ⟨(x -. (start +. step *. n)) /. step, ?_, ⟨hq.1, by rw [hq.2, hv], htm, htb⟩, hsat⟩
  unfold cubRegAxis
  rw [hraw]
  dsimp only
  rw [if_neg (show ¬ z = isizeMin by simp only [isizeMin]; omega), hn]

/-- The rule of one axis. -/
theorem cubRegRule_dyadic {m : Int} {s dim : Nat} {B start step x : ℚ}
    (hr : Room f (m - ((1 + 3 * s : Nat) : Int)) (32 * B)) (fma fmaLow lin : Bool) (h4 : 4 ≤ dim)
    (hs : s ≤ f.p) (hstep : 0 < step)
    (hin : InRange dim (fun i : Nat => start + step * (i : ℚ)) x) {t : Ieee f}
    (ht : Fix (-(s : Int)) 2 t ((x - (start + step *
      ((clampIdx (⌊(x - start) / step⌋ - 1) (dim - 4) + 1 : Nat) : ℚ))) / step))
    (hsat : let z := ⌊(x - start) / step⌋
      let t' := (x - (start + step * ((clampIdx (z - 1) (dim - 4) + 1 : Nat) : ℚ))) / step
      (satRegular dim z = .none ∧ 0 ≤ t' ∧ t' ≤ 1) ∨
        (satRegular dim z = .insideLow ∧ -1 ≤ t' ∧ t' ≤ 0) ∨
        ((satRegular dim z = .insideHigh ∨ satRegular dim z = .outsideHigh) ∧ 1 ≤ t' ∧ t' ≤ 2))
    {v : Nat → Ieee f} {v' : Nat → ℚ} (hv : ∀ i, i < dim → Fix m B (v i) (v' i)) :
    Fix (m - ((1 + 3 * s : Nat) : Int)) (5 / 4 * B)
      (cubRegRule fma fmaLow lin (clampIdx (⌊(x - start) / step⌋ - 1) (dim - 4),
        satRegular dim ⌊(x - start) / step⌋, t) v)
      (cubicPiece dim (fun i : Nat => start + step * i) v' lin
        (clampIdx ⌊(x - start) / step⌋ (dim - 2)) x) := by
  have hm : m - ((1 + 3 * s : Nat) : Int) = m - 1 - 3 * s := by push_cast; ring
  rw [hm] at hr ⊢
  have hob := clampIdx_le (⌊(x - start) / step⌋ - 1) (dim - 4)
  have hinner := cubicInner_dyadic hr fma fmaLow lin
    (v := fun p => v (clampIdx (⌊(x - start) / step⌋ - 1) (dim - 4) + p.val))
    (v' := fun p => v' (clampIdx (⌊(x - start) / step⌋ - 1) (dim - 4) + p.val))
    (fun i => hv _ (by have := i.isLt; omega)) ht hs hsat
  have hexact : @cubicInnerRegular ℚ (exactOps ℚ) false false
      (fun p => v' (clampIdx (⌊(x - start) / step⌋ - 1) (dim - 4) + p.val))
      ((x - (start + step *
        ((clampIdx (⌊(x - start) / step⌋ - 1) (dim - 4) + 1 : Nat) : ℚ))) / step)
      (satRegular dim ⌊(x - start) / step⌋) lin =
      cubicPiece dim (fun i : Nat => start + step * i) v' lin
        (clampIdx ⌊(x - start) / step⌋ (dim - 2)) x :=
    cubRegRule_exact false false lin h4 hstep v'
  rw [hexact] at hinner
  obtain ⟨h1, h2, h3⟩ := hinner
  refine ⟨h1, h3, by rw [h3] at h2; exact h2, ?_⟩
  have hincr : Incr dim (fun i : Nat => start + step * (i : ℚ)) := fun i _ => by
    push_cast
    linarith
  have hcell := regular_inCell (x := x) (start := start) hstep (by omega : 2 ≤ dim)
  have hlip := cubicPiece_lip hincr h4 lin hcell hin (ρ := 1)
    (fun i hi => by constructor <;> (push_cast; linarith)) (f := v') (f' := fun _ => 0) (ε := B)
    fun j hj => by rw [sub_zero]; exact (hv j hj.1).le
  have h0 : cubicPiece dim (fun i : Nat => start + step * (i : ℚ))
      (fun _ => 0) lin (clampIdx ⌊(x - start) / step⌋ (dim - 2)) x = 0 :=
    cubicPiece_affine hincr h4 hcell.1 lin (φ := fun _ => (0 : ℚ)) ⟨0, 0, fun z => by ring⟩
  rw [h0, sub_zero] at hlip
  refine hlip.trans (le_of_eq ?_)
  norm_num

/-- All axes. -/
theorem fix_axisByAxis {m : Int} {B : ℚ} (hB : 0 ≤ B) : ∀ {N : Nat} (w : Fin N → Nat)
    (_ : Room f (m - ((∑ k, w k : Nat) : Int)) (32 * ((5 / 4) ^ (N - 1) * B)))
    (S : Fin N → Nat → Prop) (opT : Fin N → (Nat → Ieee f) → Ieee f) (op : Fin N → (Nat → ℚ) → ℚ)
    (g : (Fin N → Nat) → Ieee f) (g' : (Fin N → Nat) → ℚ)
    (_ : ∀ k (m' : Int) (B' : ℚ) v v', Room f (m' - (w k : Int)) (32 * B') →
      (∀ i, S k i → Fix m' B' (v i) (v' i)) → Fix (m' - (w k : Int)) (5 / 4 * B') (opT k v) (op k v'))
    (_ : ∀ loc : Fin N → Nat, (∀ k, S k (loc k)) → Fix m B (g loc) (g' loc)),
    Fix (m - ((∑ k, w k : Nat) : Int)) ((5 / 4) ^ N * B) (axisByAxis opT g) (axisByAxis op g')
  | 0, w, _, S, opT, op, g, g', _, hg => by
    have := hg (fun k => k.elim0) (fun k => k.elim0)
    rw [axisByAxis, axisByAxis]
    simpa using this
  | N + 1, w, h, S, opT, op, g, g', hop, hg => by
    rw [Fin.sum_univ_castSucc] at h ⊢
    have hs : m - ((∑ k : Fin N, w k.castSucc + w (Fin.last N) : Nat) : Int) =
        m - ((∑ k : Fin N, w k.castSucc : Nat) : Int) - (w (Fin.last N) : Int) := by
      push_cast; ring
    rw [hs] at h ⊢
    rw [Nat.add_sub_cancel] at h
    have hle : 32 * ((5 / 4 : ℚ) ^ (N - 1) * B) ≤ 32 * ((5 / 4) ^ N * B) := by
      refine mul_le_mul_of_nonneg_left (mul_le_mul_of_nonneg_right ?_ hB) (by norm_num)
      exact pow_le_pow_right₀ (by norm_num) (Nat.sub_le _ _)
    rw [axisByAxis, axisByAxis]
    have := hop (Fin.last N) _ _ _ _ h fun i hi =>
      fix_axisByAxis hB (fun k : Fin N => w k.castSucc) (h.mono (by omega) hle)
        (fun k => S k.castSucc) (fun k => opT k.castSucc) (fun k => op k.castSucc)
        (fun loc => g (Fin.snoc (α := fun _ => Nat) loc i))
        (fun loc => g' (Fin.snoc (α := fun _ => Nat) loc i)) (fun k => hop k.castSucc)
        (fun loc hl => hg _ fun k => by
          refine Fin.lastCases ?_ (fun k => ?_) k
          · rw [Fin.snoc_last]; exact hi
          · rw [Fin.snoc_castSucc]; exact hl k)
    refine this.mono le_rfl (le_of_eq ?_)
    rw [pow_succ]
    ring

end Interpn
