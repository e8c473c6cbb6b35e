import Verif.Lemmas.IeeeSign

/-! Monotonicity of computed blends in IEEE 754 arithmetic. -/

set_option autoImplicit false

namespace Interpn
namespace Ieee
open FloatOps
variable {f : Format}

/-- Rounding, with overflow to infinities, keeps the order. -/
theorem rnd_mono (s t : Bool) {q q' : ℚ} (h : q ≤ q') : (rnd f t q' <. rnd f s q) = false := by
  have hm := f.roundQ_mono h
  rcases rnd_cases (f := f) s q with ⟨h1, h2⟩ | ⟨h1, h2⟩
  · have ho := abs_le.1 h1.repr.le_omega
    obtain ⟨sa, qa, ra, wa, e⟩ := h1.cases
    rw [e] at h2 ho ⊢
    change qa = _ at h2
    change -f.omega ≤ qa ∧ qa ≤ f.omega at ho
    rcases rnd_cases (f := f) t q' with ⟨h3, h4⟩ | ⟨h3, h4⟩
    · obtain ⟨sb, qb, rb, wb, e'⟩ := h3.cases
      rw [e'] at h4 ⊢
      change qb = _ at h4
      change decide (qb < qa) = false
      rw [decide_eq_false_iff_not, not_lt, h2, h4]; exact hm
    · rw [h3]
      change decide (q' < 0) = false
      rw [decide_eq_false_iff_not]
      intro hn
      rw [abs_of_nonpos (f.roundQ_nonpos hn.le)] at h4
      linarith
  · rw [h1]
    rcases rnd_cases (f := f) t q' with ⟨h3, h4⟩ | ⟨h3, h4⟩
    · have ho := abs_le.1 h3.repr.le_omega
      obtain ⟨sb, qb, rb, wb, e'⟩ := h3.cases
      rw [e'] at h4 ho ⊢
      change qb = _ at h4
      change -f.omega ≤ qb ∧ qb ≤ f.omega at ho
      change (!decide (q < 0)) = false
      rw [Bool.not_eq_false', decide_eq_true_iff]
      by_contra hn
      rw [abs_of_nonneg (f.roundQ_nonneg (not_lt.1 hn))] at h2
      linarith
    · rw [h3]
      change (decide (q' < 0) && !decide (q < 0)) = false
      by_cases hq : q < 0
      · simp [hq]
      · have : ¬ q' < 0 := by linarith
        simp [this]

theorem lt_nan_left (a : Ieee f) : ((nan : Ieee f) <. a) = false := by cases a <;> rfl
theorem lt_nan_right (a : Ieee f) : (a <. (nan : Ieee f)) = false := by cases a <;> rfl

/-- All outcomes are NaN or one infinity. -/
theorem lt_const {s : Bool} {a b : Ieee f} (ha : a = nan ∨ a = inf s) (hb : b = nan ∨ b = inf s) :
    (a <. b) = false := by
  rcases ha with rfl | rfl
  · exact lt_nan_left b
  · rcases hb with rfl | rfl
    · rfl
    · cases s <;> rfl

/-- The blend is increasing or decreasing in the weight. -/
theorem lerp_mono (fma : Bool) (v : Fin 2 → Ieee f) :
    (∀ t t' : Ieee f, WeightOk t → WeightOk t' → (t ≠ nan → t' ≠ nan → val t ≤ val t') →
      (lerp fma t' v <. lerp fma t v) = false) ∨
    (∀ t t' : Ieee f, WeightOk t → WeightOk t' → (t ≠ nan → t' ≠ nan → val t ≤ val t') →
      (lerp fma t v <. lerp fma t' v) = false) := by
  unfold lerp
  simp only
  generalize v 0 = y0 at *
  generalize v 1 = y1 at *
  have nanR : ∀ a : Ieee f, (a +. nan : Ieee f) = nan := fun a => by cases a <;> rfl
  have ltL := lt_nan_left (f := f)
  have ltR := lt_nan_right (f := f)
  -- the value for a NaN weight
  have hnanw : (if fma = true then FloatOps.mulAdd nan (y1 -. y0) y0 else y0 +. nan *. (y1 -. y0) : Ieee f)
      = nan := by
    cases fma
    · have : (nan *. (y1 -. y0) : Ieee f) = nan := by cases (y1 -. y0) <;> rfl
      simp only [Bool.false_eq_true, if_false, this, nanR]
    · rfl
  by_cases hy0 : Finite y0
  · by_cases hdy : Finite (y1 -. y0)
    · -- everything finite
      generalize hd : (y1 -. y0) = dy at *
      have step : ∀ t t' : Ieee f, Finite t → Finite t' → val t * val dy ≤ val t' * val dy →
          0 ≤ val t → val t ≤ 1 → 0 ≤ val t' → val t' ≤ 1 →
          ((if fma = true then FloatOps.mulAdd t' dy y0 else y0 +. t' *. dy) <.
            (if fma = true then FloatOps.mulAdd t dy y0 else y0 +. t *. dy)) = false := by
        intro t t' ht ht' hle h0 h1 h0' h1'
        cases fma
        · simp only [Bool.false_eq_true, if_false]
          have hp : ∀ t : Ieee f, Finite t → 0 ≤ val t → val t ≤ 1 →
              Finite (t *. dy) ∧ val (t *. dy) = f.roundQ (val t * val dy) := by
            intro t ht h0 h1
            obtain ⟨w, e⟩ := mul_fin ht hdy
            rw [e]
            refine rnd_of_le w ?_
            have := hdy.repr.le_omega
            rw [abs_mul, abs_of_nonneg h0]
            have h3 := abs_nonneg (val dy)
            nlinarith
          obtain ⟨a1, a2⟩ := hp t ht h0 h1
          obtain ⟨b1, b2⟩ := hp t' ht' h0' h1'
          obtain ⟨w, e⟩ := add_fin hy0 a1
          obtain ⟨w', e'⟩ := add_fin hy0 b1
          rw [e, e']
          refine rnd_mono _ _ ?_
          rw [a2, b2]
          have := f.roundQ_mono hle
          linarith
        · simp only [if_true]
          obtain ⟨w, e⟩ := mulAdd_fin ht hdy hy0
          obtain ⟨w', e'⟩ := mulAdd_fin ht' hdy hy0
          rw [e, e']
          exact rnd_mono _ _ (by linarith)
      rcases le_total 0 (val dy) with hs | hs
      · left
        intro t t' ht ht' hle
        rcases ht with rfl | ⟨ht, h0, h1⟩
        · rw [hnanw]; exact ltR _
        rcases ht' with rfl | ⟨ht', h0', h1'⟩
        · rw [hnanw]; exact ltL _
        have hle := hle (by rintro rfl; exact ht) (by rintro rfl; exact ht')
        exact step t t' ht ht' (by nlinarith) h0 h1 h0' h1'
      · right
        intro t t' ht ht' hle
        rcases ht with rfl | ⟨ht, h0, h1⟩
        · rw [hnanw]; exact ltL _
        rcases ht' with rfl | ⟨ht', h0', h1'⟩
        · rw [hnanw]; exact ltR _
        have hle := hle (by rintro rfl; exact ht) (by rintro rfl; exact ht')
        exact step t' t ht' ht (by nlinarith) h0' h1' h0 h1
    · -- the difference is NaN or infinite
      left
      have hc : ∃ s, ∀ t : Ieee f, WeightOk t →
          ((if fma = true then FloatOps.mulAdd t (y1 -. y0) y0 else y0 +. t *. (y1 -. y0)) = nan ∨
          (if fma = true then FloatOps.mulAdd t (y1 -. y0) y0 else y0 +. t *. (y1 -. y0)) = inf s) := by
        obtain ⟨s0, q0, r0, w0, rfl⟩ := hy0.cases
        generalize (y1 -. (fin s0 q0 r0 w0 : Ieee f)) = dy at *
        cases dy with
        | fin => exact absurd trivial hdy
        | nan =>
          refine ⟨false, fun t _ => .inl ?_⟩
          cases fma <;> cases t <;> rfl
        | inf s =>
          refine ⟨s, fun t ht => ?_⟩
          rcases ht with rfl | ⟨ht, h0, h1⟩
          · exact .inl hnanw
          obtain ⟨st, qt, rt, wt, rfl⟩ := ht.cases
          change 0 ≤ qt at h0
          by_cases hz : qt = 0
          · subst hz
            left; cases fma <;> rfl
          · have : st = false := by rw [wt hz, decide_eq_false_iff_not]; linarith
            subst this
            right
            have e : ((fin false qt rt wt : Ieee f) *. inf s) = inf s := by
              refine (if_neg hz).trans ?_
              cases s <;> rfl
            cases fma
            · show ((fin s0 q0 r0 w0 : Ieee f) +. ((fin false qt rt wt : Ieee f) *. inf s)) = inf s
              rw [e]; rfl
            · show (((fin false qt rt wt : Ieee f) *. inf s) +. (fin s0 q0 r0 w0 : Ieee f)) = inf s
              rw [e]; rfl
      obtain ⟨s, hc⟩ := hc
      exact fun t t' ht ht' _ => lt_const (hc t' ht') (hc t ht)
  · -- the lower value is NaN or infinite: the result is NaN
    left
    have hc : ∀ t : Ieee f, WeightOk t →
        (if fma = true then FloatOps.mulAdd t (y1 -. y0) y0 else y0 +. t *. (y1 -. y0)) = nan := by
      intro t ht
      rcases ht with rfl | ⟨ht, h0, h1⟩
      · exact hnanw
      obtain ⟨st, qt, rt, wt, rfl⟩ := ht.cases
      change 0 ≤ qt at h0
      cases y0 with
      | fin => exact absurd trivial hy0
      | nan => cases fma <;> cases y1 <;> rfl
      | inf s0 =>
        have hdy : (y1 -. (inf s0 : Ieee f)) = nan ∨ (y1 -. (inf s0 : Ieee f)) = inf (!s0) := by
          cases y1 with
          | fin => exact .inr rfl
          | nan => exact .inl rfl
          | inf s1 => cases s0 <;> cases s1 <;> first | exact .inl rfl | exact .inr rfl
        rcases hdy with e | e <;> rw [e]
        · cases fma <;> rfl
        · by_cases hz : qt = 0
          · subst hz
            cases fma <;> rfl
          · have : st = false := by rw [wt hz, decide_eq_false_iff_not]; linarith
            subst this
            have e : ((fin false qt rt wt : Ieee f) *. inf (!s0)) = inf (!s0) := by
              refine (if_neg hz).trans ?_
              cases s0 <;> rfl
            cases fma
            · show ((inf s0 : Ieee f) +. ((fin false qt rt wt : Ieee f) *. inf (!s0))) = nan
              rw [e]; cases s0 <;> rfl
            · show (((fin false qt rt wt : Ieee f) *. inf (!s0)) +. (inf s0 : Ieee f)) = nan
              rw [e]; cases s0 <;> rfl
    intro t t' ht ht' _
    rw [hc t ht]; exact ltR _

/-- The computed position in a cell is increasing. -/
theorem weight_mono {a b x y : Ieee f} (ha : Finite a) (hb : Finite b) (hx : Finite x)
    (hy : Finite y) (h1 : val a ≤ val x) (h2 : val x ≤ val y) (h3 : val y ≤ val b)
    (nx : (x -. a) /. (b -. a) ≠ nan) (ny : (y -. a) /. (b -. a) ≠ nan) :
    val ((x -. a) /. (b -. a)) ≤ val ((y -. a) /. (b -. a)) := by
  obtain ⟨s, e1⟩ := sub_fin hx ha
  obtain ⟨s', e1'⟩ := sub_fin hy ha
  obtain ⟨t, e2⟩ := sub_fin hb ha
  have hm : f.roundQ (val x - val a) ≤ f.roundQ (val y - val a) := f.roundQ_mono (by linarith)
  have hm' : f.roundQ (val y - val a) ≤ f.roundQ (val b - val a) := f.roundQ_mono (by linarith)
  have h0 : 0 ≤ f.roundQ (val x - val a) := f.roundQ_nonneg (by linarith)
  have wx := weightOk ha hb hx h1 (by linarith)
  have wy := weightOk ha hb hy (by linarith) h3
  rcases wx with wx | ⟨fx, -, -⟩
  · exact absurd wx nx
  rcases wy with wy | ⟨fy, -, -⟩
  · exact absurd wy ny
  rw [e1, e2] at nx fx ⊢
  rw [e1', e2] at ny fy
  rw [e1']
  rcases rnd_cases (f := f) t (val b - val a) with ⟨hbf, hbv⟩ | ⟨hb', hbo⟩
  · have hfin : ∀ (s : Bool) (q : ℚ), 0 ≤ f.roundQ q → f.roundQ q ≤ f.roundQ (val b - val a) →
        Finite (rnd f s q) ∧ val (rnd f s q) = f.roundQ q := by
      intro s q hq0 hq
      rcases rnd_cases (f := f) s q with h | ⟨ha', hao⟩
      · exact h
      · exfalso
        have := hbf.repr.le_omega
        rw [hbv, abs_of_nonneg (hq0.trans hq)] at this
        rw [abs_of_nonneg hq0] at hao
        linarith
    obtain ⟨haf, hav⟩ := hfin s _ h0 (hm.trans hm')
    obtain ⟨haf', hav'⟩ := hfin s' _ (h0.trans hm) hm'
    by_cases hz : (rnd f t (val b - val a)).val = 0
    · exfalso
      apply nx
      rw [hbv] at hz
      have h3 : f.roundQ (val x - val a) = 0 := le_antisymm (by linarith) h0
      obtain ⟨s1, q1, r1, w1, g1⟩ := hbf.cases
      obtain ⟨s2, q2, r2, w2, g2⟩ := haf.cases
      have i1 : q1 = 0 := by rw [g1] at hbv; rw [hz] at hbv; exact hbv
      have i2 : q2 = 0 := by rw [g2] at hav; rw [h3] at hav; exact hav
      rw [g1, g2]
      show (if q1 = 0 then (if q2 = 0 then nan else _) else _) = nan
      rw [if_pos i1, if_pos i2]
    · obtain ⟨w, e3⟩ := div_fin haf hbf hz
      obtain ⟨w', e3'⟩ := div_fin haf' hbf hz
      rw [e3] at fx ⊢
      rw [e3'] at fy ⊢
      have g : ∀ (s : Bool) (q : ℚ), Finite (rnd f s q) → val (rnd f s q) = f.roundQ q := by
        intro s q h
        rcases rnd_cases (f := f) s q with h' | ⟨h', -⟩
        · exact h'.2
        · rw [h'] at h; exact h.elim
      rw [g _ _ fx, g _ _ fy, hav, hav', hbv]
      rw [hbv] at hz
      have hpos : 0 < f.roundQ (val b - val a) := lt_of_le_of_ne (by linarith) (Ne.symm hz)
      exact f.roundQ_mono (by gcongr)
  · rw [hb'] at nx ny ⊢
    rcases rnd_cases (f := f) s (val x - val a) with ⟨haf, -⟩ | ⟨ha', -⟩
    · rcases rnd_cases (f := f) s' (val y - val a) with ⟨haf', -⟩ | ⟨ha', -⟩
      · obtain ⟨s2, q2, r2, w2, g2⟩ := haf.cases
        obtain ⟨s3, q3, r3, w3, g3⟩ := haf'.cases
        rw [g2, g3]
        exact le_rfl
      · exact absurd (by rw [ha']; rfl) ny
    · exact absurd (by rw [ha']; rfl) nx

end Ieee
end Interpn
