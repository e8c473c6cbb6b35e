import Verif.Spec.Ieee
import Verif.Spec.Rounding
import Verif.Spec.Special
import Verif.Spec.PythonClasses

/-! IEEE 754 arithmetic satisfies all the laws assumed of floats anywhere in this development. -/

set_option autoImplicit false

namespace Interpn
namespace Ieee
open FloatOps
variable {f : Format}

theorem Finite.cases {a : Ieee f} (h : a.Finite) :
    ∃ s q hr hs, a = fin s q hr hs := by
  cases a with
  | fin s q hr hs => exact ⟨s, q, hr, hs, rfl⟩
  | inf _ => exact h.elim
  | nan => exact h.elim

theorem Finite.repr {a : Ieee f} (h : a.Finite) : f.Representable a.val := by
  obtain ⟨s, q, hr, hs, rfl⟩ := h.cases
  exact hr

theorem rnd_of_le (s : Bool) {q : ℚ} (h : |q| ≤ f.omega) :
    (rnd f s q).Finite ∧ (rnd f s q).val = f.roundQ q := by
  unfold rnd
  rw [dif_pos (f.roundQ_in_range h)]
  exact ⟨trivial, rfl⟩

theorem rnd_of_repr (s : Bool) {q : ℚ} (h : f.Representable q) :
    (rnd f s q).Finite ∧ (rnd f s q).val = q := by
  have := rnd_of_le s h.le_omega
  rwa [f.roundQ_repr h] at this

theorem rnd_between (s : Bool) {q c d : ℚ} (hc : f.Representable c) (hd : f.Representable d)
    (h1 : c ≤ q) (h2 : q ≤ d) :
    (rnd f s q).Finite ∧ c ≤ (rnd f s q).val ∧ (rnd f s q).val ≤ d := by
  have hq : |q| ≤ f.omega := by
    have a1 := (abs_le.1 hc.le_omega).1
    have a2 := (abs_le.1 hd.le_omega).2
    rw [abs_le]
    constructor <;> linarith
  obtain ⟨e1, e2⟩ := rnd_of_le (f := f) s hq
  rw [e2]
  exact ⟨e1, f.le_roundQ hc h1, f.roundQ_le hd h2⟩

theorem add_fin {a b : Ieee f} (ha : a.Finite) (hb : b.Finite) :
    ∃ s, a +. b = rnd f s (a.val + b.val) := by
  obtain ⟨s, q, hr, hs, rfl⟩ := ha.cases
  obtain ⟨t, r, hr', hs', rfl⟩ := hb.cases
  exact ⟨_, rfl⟩

theorem sub_fin {a b : Ieee f} (ha : a.Finite) (hb : b.Finite) :
    ∃ s, a -. b = rnd f s (a.val - b.val) := by
  obtain ⟨s, q, hr, hs, rfl⟩ := ha.cases
  obtain ⟨t, r, hr', hs', rfl⟩ := hb.cases
  exact ⟨s && !t, congrArg (rnd f (s && !t)) (sub_eq_add_neg q r).symm⟩

theorem mul_fin {a b : Ieee f} (ha : a.Finite) (hb : b.Finite) :
    ∃ s, a *. b = rnd f s (a.val * b.val) := by
  obtain ⟨s, q, hr, hs, rfl⟩ := ha.cases
  obtain ⟨t, r, hr', hs', rfl⟩ := hb.cases
  exact ⟨_, rfl⟩

theorem div_fin {a b : Ieee f} (ha : a.Finite) (hb : b.Finite) (h0 : b.val ≠ 0) :
    ∃ s, a /. b = rnd f s (a.val / b.val) := by
  obtain ⟨s, q, hr, hs, rfl⟩ := ha.cases
  obtain ⟨t, r, hr', hs', rfl⟩ := hb.cases
  exact ⟨_, if_neg (show ¬ r = 0 from h0)⟩

theorem mulAdd_fin {a b c : Ieee f} (ha : a.Finite) (hb : b.Finite) (hc : c.Finite) :
    ∃ s, FloatOps.mulAdd a b c = rnd f s (a.val * b.val + c.val) := by
  obtain ⟨s, q, hr, hs, rfl⟩ := ha.cases
  obtain ⟨t, r, hr', hs', rfl⟩ := hb.cases
  obtain ⟨t', r', hr'', hs'', rfl⟩ := hc.cases
  exact ⟨_, rfl⟩

theorem zero_eq : (FloatOps.zero : Ieee f).Finite ∧ (FloatOps.zero : Ieee f).val = 0 :=
  ⟨trivial, rfl⟩

theorem one_eq : (FloatOps.one : Ieee f).Finite ∧ (FloatOps.one : Ieee f).val = 1 :=
  ⟨trivial, rfl⟩

theorem neg_eq {a : Ieee f} (ha : a.Finite) : (-. a).Finite ∧ (-. a).val = -a.val := by
  obtain ⟨s, q, hr, hs, rfl⟩ := ha.cases
  exact ⟨trivial, rfl⟩

variable (f)

/-- The standard model of rounding. -/
theorem rounds : Rounds (T := Ieee f) val Finite f.unitRoundoff f.underflow f.omega := by
  refine ⟨by unfold Format.unitRoundoff; positivity, f.underflow_pos.le, ?_, ?_, ?_, ?_, ?_⟩
  · intro a b ha hb h
    obtain ⟨s, e⟩ := add_fin ha hb
    obtain ⟨h1, h2⟩ := rnd_of_le (f := f) s h
    rw [e, h2]
    exact ⟨h1, f.roundQ_err_add ha.repr hb.repr⟩
  · intro a b ha hb h
    obtain ⟨s, e⟩ := sub_fin ha hb
    obtain ⟨h1, h2⟩ := rnd_of_le (f := f) s h
    rw [e, h2]
    refine ⟨h1, ?_⟩
    have := f.roundQ_err_add ha.repr hb.repr.neg
    rwa [← sub_eq_add_neg] at this
  · intro a b ha hb h
    obtain ⟨s, e⟩ := mul_fin ha hb
    obtain ⟨h1, h2⟩ := rnd_of_le (f := f) s h
    rw [e, h2]
    exact ⟨h1, f.roundQ_err _⟩
  · intro a b ha hb h0 h
    obtain ⟨s, e⟩ := div_fin ha hb h0
    obtain ⟨h1, h2⟩ := rnd_of_le (f := f) s h
    rw [e, h2]
    exact ⟨h1, f.roundQ_err _⟩
  · intro a b c ha hb hc h
    obtain ⟨s, e⟩ := mulAdd_fin ha hb hc
    obtain ⟨h1, h2⟩ := rnd_of_le (f := f) s h
    rw [e, h2]
    exact ⟨h1, f.roundQ_err _⟩

/-- Rounding does not cross floats. -/
theorem staysBetween : StaysBetween (T := Ieee f) val Finite := by
  refine ⟨?_, ?_, ?_, ?_, ?_⟩
  · intro a b c d ha hb hc hd h1 h2
    obtain ⟨s, e⟩ := add_fin ha hb
    rw [e]; exact rnd_between s hc.repr hd.repr h1 h2
  · intro a b c d ha hb hc hd h1 h2
    obtain ⟨s, e⟩ := sub_fin ha hb
    rw [e]; exact rnd_between s hc.repr hd.repr h1 h2
  · intro a b c d ha hb hc hd h1 h2
    obtain ⟨s, e⟩ := mul_fin ha hb
    rw [e]; exact rnd_between s hc.repr hd.repr h1 h2
  · intro a b c d ha hb hc hd h0 h1 h2
    obtain ⟨s, e⟩ := div_fin ha hb h0
    rw [e]; exact rnd_between s hc.repr hd.repr h1 h2
  · intro a b e c d ha hb he hc hd h1 h2
    obtain ⟨s, e⟩ := mulAdd_fin ha hb he
    rw [e]; exact rnd_between s hc.repr hd.repr h1 h2

/-- Operations whose exact result is a float are exact. -/
theorem exactIfFloat : ExactIfFloat (T := Ieee f) val Finite := by
  have h := staysBetween f
  refine ⟨zero_eq, one_eq, fun a => neg_eq, ?_, ?_, ?_, ?_, ?_⟩
  · intro a b c ha hb hc e
    obtain ⟨h1, h2, h3⟩ := h.add a b c c ha hb hc hc e.ge e.le
    exact ⟨h1, le_antisymm h3 h2⟩
  · intro a b c ha hb hc e
    obtain ⟨h1, h2, h3⟩ := h.sub a b c c ha hb hc hc e.ge e.le
    exact ⟨h1, le_antisymm h3 h2⟩
  · intro a b c ha hb hc e
    obtain ⟨h1, h2, h3⟩ := h.mul a b c c ha hb hc hc e.ge e.le
    exact ⟨h1, le_antisymm h3 h2⟩
  · intro a b c ha hb hc h0 e
    obtain ⟨h1, h2, h3⟩ := h.div a b c c ha hb hc hc h0 e.ge e.le
    exact ⟨h1, le_antisymm h3 h2⟩
  · intro a b c d ha hb hc hd e
    obtain ⟨h1, h2, h3⟩ := h.mulAdd a b c d d ha hb hc hd hd e.ge e.le
    exact ⟨h1, le_antisymm h3 h2⟩

theorem exactSign : ExactSign (T := Ieee f) val Finite := ⟨one_eq, fun _ => neg_eq⟩

theorem exactCompare : ExactCompare (T := Ieee f) val Finite := by
  intro a b ha hb
  obtain ⟨s, q, hr, hs, rfl⟩ := ha.cases
  obtain ⟨t, r, hr', hs', rfl⟩ := hb.cases
  exact decide_eq_true_iff

theorem exactCompareLe : ExactCompareLe (T := Ieee f) val Finite := by
  intro a b ha hb
  obtain ⟨s, q, hr, hs, rfl⟩ := ha.cases
  obtain ⟨t, r, hr', hs', rfl⟩ := hb.cases
  exact decide_eq_true_iff

theorem truncZ_intCast (z : Int) : truncZ ((z : Int) : ℚ) = z := by
  unfold truncZ
  split
  · exact Int.floor_intCast z
  · exact Int.ceil_intCast z

/-- Indices up to `2^p` are exact. -/
theorem exactWhole {n : Nat} (hn : n ≤ 2 ^ f.p + 1) : ExactWhole (T := Ieee f) val Finite n := by
  refine ⟨zero_eq, ?_, ?_⟩
  · intro a ha h1 h2
    obtain ⟨s, q, hr, hs, rfl⟩ := ha.cases
    show (if isizeMin ≤ truncZ ((⌊q⌋ : Int) : ℚ) ∧ truncZ ((⌊q⌋ : Int) : ℚ) ≤ isizeMax
      then some (truncZ ((⌊q⌋ : Int) : ℚ)) else none) = some ⌊q⌋
    rw [truncZ_intCast, if_pos ⟨h1, h2⟩]
  · intro i hi
    have h : f.Representable ((i : Nat) : ℚ) := by
      have := f.intCast_repr (z := (i : Int)) (by
        rw [abs_of_nonneg (by positivity)]
        have : i ≤ 2 ^ f.p := by omega
        exact_mod_cast this)
      simpa using this
    obtain ⟨h1, h2⟩ := rnd_of_repr false h
    exact ⟨_, rfl, h1, h2⟩

theorem totalOfUsize : TotalOfUsize (Ieee f) := fun _ _ => ⟨_, rfl⟩

/-- Whole numbers below `2^64` convert to finite floats, with at most the relative error `u`. -/
theorem ofUsize_fin (n : Nat) (hn : n ≤ usizeMax) (he : 64 ≤ f.emax) :
    ∃ x : Ieee f, FloatOps.ofUsize n = some x ∧ x.Finite := by
  refine ⟨_, rfl, (rnd_of_le false ?_).1⟩
  have h1 : (n : ℚ) ≤ 2 ^ 64 := by
    have : n ≤ 2 ^ 64 := by unfold usizeMax at hn; omega
    exact_mod_cast this
  have h2 : (2 : ℚ) ^ (f.emax : Int) ≤ f.omega := by
    unfold Format.omega
    have e : (2 : ℚ) ^ (f.emax : Int) = 2 ^ (f.p - 1) * 2 ^ ((f.emax : Int) - (f.p - 1)) := by
      rw [← zpow_natCast (2 : ℚ) (f.p - 1), ← zpow_add₀ (by norm_num)]
      congr 1
      have := f.two_le_p
      omega
    rw [e]
    refine mul_le_mul_of_nonneg_right ?_ (zpow_pos (by norm_num) _).le
    have e2 : (2 : ℚ) ^ f.p = 2 * 2 ^ (f.p - 1) := by
      rw [← pow_succ']; congr 1; have := f.two_le_p; omega
    have : (1 : ℚ) ≤ 2 ^ (f.p - 1) := one_le_pow₀ (by norm_num)
    linarith
  have h3 : (2 : ℚ) ^ 64 ≤ 2 ^ (f.emax : Int) := by
    rw [zpow_natCast]; exact pow_le_pow_right₀ (by norm_num) he
  rw [abs_of_nonneg (by positivity)]
  linarith

/-- `0 < b - a` exactly if `a < b`, for all data including infinities and NaN. -/
theorem subDetectsOrder : SubDetectsOrder (Ieee f) := by
  intro a b
  cases a with
  | nan => cases b <;> rfl
  | inf s => cases b with
    | nan => rfl
    | inf t => cases s <;> cases t <;> rfl
    | fin t r hr' hs' => cases s <;> rfl
  | fin s q hr hs => cases b with
    | nan => rfl
    | inf t => cases t <;> rfl
    | fin t r hr' hs' =>
      show lt (FloatOps.zero : Ieee f) (rnd f (t && !s) (r + -q)) = decide (q < r)
      unfold rnd
      split
      · show decide ((0 : ℚ) < f.roundQ (r + -q)) = decide (q < r)
        rw [decide_eq_decide]
        constructor
        · intro h
          by_contra hc
          have := f.roundQ_nonpos (q := r + -q) (by linarith)
          linarith
        · intro h
          refine lt_of_le_of_ne (f.roundQ_nonneg (by linarith)) (Ne.symm ?_)
          exact f.roundQ_add_ne_zero hr' hr.neg (by intro h0; linarith)
      · show (!decide (r + -q < 0)) = decide (q < r)
        next hov =>
        have hne : q ≠ r := by
          rintro rfl
          apply hov
          rw [add_neg_cancel, f.roundQ_zero, abs_zero]
          exact f.omega_pos.le
        rcases lt_or_gt_of_ne hne with h | h
        · rw [decide_eq_true h, decide_eq_false (by linarith)]; rfl
        · rw [decide_eq_true (by linarith), decide_eq_false (by linarith)]; rfl

/-- The laws of special values. -/
theorem special : SpecialValues (T := Ieee f) IsNan (fun a => ¬ Finite a) := by
  have hn : Absorbing (T := Ieee f) IsNan := by
    constructor
    · rintro a b (rfl | rfl)
      · show add _ _ = _; cases b <;> rfl
      · show add _ _ = _; cases a <;> rfl
    · rintro a b (rfl | rfl)
      · show add _ (neg _) = _; cases b <;> rfl
      · show add _ (neg _) = _; cases a <;> rfl
    · rintro a b (rfl | rfl)
      · show mul _ _ = _; cases b <;> rfl
      · show mul _ _ = _; cases a <;> rfl
    · rintro a b rfl; show div _ _ = _; cases b <;> rfl
    · rintro a rfl; rfl
    · rintro a rfl; rfl
    · rintro a rfl; rfl
    · rintro a b c (rfl | rfl | rfl)
      · show mulAdd _ _ _ = _; cases b <;> cases c <;> rfl
      · show mulAdd _ _ _ = _; cases a <;> cases c <;> rfl
      · show mulAdd _ _ _ = _
        cases a <;> cases b <;> simp only [mulAdd] <;>
          (first | rfl | (generalize mul _ _ = m; cases m <;> rfl))
  have hadd : ∀ a b : Ieee f, ¬ Finite a ∨ ¬ Finite b → ¬ Finite (add a b) := by
    intro a b h
    cases a <;> cases b <;> simp only [Finite, not_true_eq_false, not_false_eq_true, or_self,
      or_true, or_false] at h <;> simp only [add] <;> (try split) <;> exact fun h => h
  have hmul : ∀ a b : Ieee f, ¬ Finite a ∨ ¬ Finite b → ¬ Finite (mul a b) := by
    intro a b h
    cases a <;> cases b <;> simp only [Finite, not_true_eq_false, not_false_eq_true, or_self,
      or_true, or_false] at h <;> simp only [mul] <;> (try split) <;> exact fun h => h
  have hneg : ∀ a : Ieee f, ¬ Finite a → ¬ Finite (neg a) := by
    intro a h; cases a <;> exact h
  have hf : Absorbing (T := Ieee f) (fun a => ¬ Finite a) := by
    refine ⟨hadd, fun a b h => hadd a (neg b) (h.imp_right (hneg b)), hmul, ?_, hneg, ?_, ?_, ?_⟩
    · intro a b h
      show ¬ Finite (div a b)
      cases a <;> cases b <;> first | exact absurd trivial h | exact fun h => h
    · intro a h; cases a <;> exact h
    · intro a h; cases a <;> exact h
    · intro a b c h
      show ¬ Finite (mulAdd a b c)
      cases a <;> cases b
      · cases c
        · simp [Finite] at h
        · exact fun h => h
        · exact fun h => h
      all_goals
        rw [mulAdd]
        · refine hadd _ _ (.inl (hmul _ _ ?_))
          first | exact .inl (fun h => h) | exact .inr (fun h => h)
        all_goals simp
  refine ⟨hn, hf, ?_, ?_, ?_, ?_⟩
  · rintro a rfl; exact fun h => h
  · rintro a b (rfl | rfl)
    · show lt _ _ = _; cases b <;> rfl
    · show lt _ _ = _; cases a <;> rfl
  · rintro a b (rfl | rfl)
    · show le _ _ = _; cases b <;> rfl
    · show le _ _ = _; cases a <;> rfl
  · intro a h
    cases a
    · exact absurd trivial h
    · rfl
    · rfl

end Ieee
end Interpn
