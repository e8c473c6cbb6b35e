import Verif.Spec.Rounding
import Verif.Spec.ExtNum
import Mathlib.Data.Int.Log
import Mathlib.Tactic.Linarith
import Mathlib.Tactic.Positivity
import Mathlib.Tactic.FieldSimp

/-! Binary floating-point numbers with `p` significant bits, as a concrete case of the rounding
model. -/

set_option autoImplicit false

namespace Interpn
namespace ExtNum

/-- Weight of the last of the `p` significant bits of `a`. -/
def ulp (p : Nat) (a : ℚ) : ℚ := 2 ^ (Int.log 2 |a| - (p - 1 : Int))

/-- Round down to `p` significant bits. -/
def roundBits (p : Nat) (a : ℚ) : ℚ := ⌊a / ulp p a⌋ * ulp p a

/-- Round down to `p` significant bits, overflow beyond `±2^e`. -/
def roundTo (p e : Nat) (a : ℚ) : ExtNum ℚ :=
  if 2 ^ e < |a| then inf (decide (a < 0)) else fin (roundBits p a)

/-- Float operations with `p` significant bits, overflow beyond `±2^e` and no underflow. -/
@[reducible] def bitOps (p e : Nat) : FloatOps (ExtNum ℚ) := ops (roundTo p e)

/-- The number a float stands for. -/
def value : ExtNum ℚ → ℚ
  | fin a => a
  | _ => 0

theorem roundBits_err (p : Nat) (a : ℚ) :
    |roundBits p a - a| ≤ 2 / 2 ^ p * |a| := by
  rcases eq_or_ne a 0 with rfl | ha
  · simp [roundBits]
  have h0 : 0 < ulp p a := zpow_pos (by norm_num) _
  have h1 : ulp p a ≤ 2 / 2 ^ p * |a| := by
    unfold ulp
    have h := Int.zpow_log_le_self (b := 2) (R := ℚ) (r := |a|) (by norm_num) (abs_pos.2 ha)
    rw [zpow_sub₀ (by norm_num), zpow_sub₀ (by norm_num), zpow_natCast, zpow_one]
    rw [div_div_eq_mul_div, div_mul_eq_mul_div, div_le_div_iff_of_pos_right (by positivity)]
    push_cast at h
    linarith
  have e : roundBits p a - a = -(Int.fract (a / ulp p a) * ulp p a) := by
    unfold roundBits Int.fract
    field_simp
    ring
  rw [e, abs_neg, abs_of_nonneg (mul_nonneg (Int.fract_nonneg _) h0.le)]
  have := (Int.fract_lt_one (a / ulp p a)).le
  nlinarith

theorem bitOps_rounds (p e : Nat) :
    @Rounds (ExtNum ℚ) ℚ (bitOps p e) _ _ value (fun a => ¬ Nonfinite a) (2 / 2 ^ p) 0 (2 ^ e) := by
  let _ := bitOps p e
  have key : ∀ a : ℚ, |a| ≤ 2 ^ e → ¬ Nonfinite (roundTo p e a) ∧
      |value (roundTo p e a) - a| ≤ 2 / 2 ^ p * |a| := by
    intro a ha
    unfold roundTo
    rw [if_neg (not_lt.2 ha)]
    exact ⟨fun h => h, roundBits_err p a⟩
  refine ⟨by positivity, le_rfl, ?_, ?_, ?_, ?_, ?_⟩
  · rintro (a | _ | _) (b | _ | _) ha hb h <;> first | exact absurd trivial ha | exact absurd trivial hb | skip
    exact key _ h
  · rintro (a | _ | _) (b | _ | _) ha hb h <;> first | exact absurd trivial ha | exact absurd trivial hb | skip
    show ¬ Nonfinite (roundTo p e (a + -b)) ∧
      |value (roundTo p e (a + -b)) - (a - b)| ≤ 2 / 2 ^ p * |a - b|
    rw [← sub_eq_add_neg]
    exact key _ h
  · rintro (a | _ | _) (b | _ | _) ha hb h <;> first | exact absurd trivial ha | exact absurd trivial hb | skip
    rw [add_zero]
    exact key _ h
  · rintro (a | _ | _) (b | _ | _) ha hb h0 h <;> first | exact absurd trivial ha | exact absurd trivial hb | skip
    have hd : FloatOps.div (fin a) (fin b) = roundTo p e (a / b) := if_neg (show ¬ b = 0 from h0)
    rw [add_zero, hd]
    exact key _ h
  · rintro (a | _ | _) (b | _ | _) (c | _ | _) ha hb hc h <;>
      first | exact absurd trivial ha | exact absurd trivial hb | exact absurd trivial hc | skip
    rw [add_zero]
    exact key _ h

theorem bitOps_compare (p e : Nat) :
    @ExactCompare (ExtNum ℚ) ℚ (bitOps p e) _ value (fun a => ¬ Nonfinite a) := by
  let _ := bitOps p e
  rintro (a | _ | _) (b | _ | _) ha hb <;> first | exact absurd trivial ha | exact absurd trivial hb | skip
  exact decide_eq_true_iff

theorem bitOps_compareLe (p e : Nat) :
    @ExactCompareLe (ExtNum ℚ) ℚ (bitOps p e) _ value (fun a => ¬ Nonfinite a) := by
  let _ := bitOps p e
  rintro (a | _ | _) (b | _ | _) ha hb <;> first | exact absurd trivial ha | exact absurd trivial hb | skip
  exact decide_eq_true_iff

/-- Whole numbers of up to `p` bits are not rounded. -/
theorem roundBits_natCast (p i : Nat) (h : i < 2 ^ p) : roundBits p (i : ℚ) = i := by
  rcases Nat.eq_zero_or_pos i with rfl | h0
  · simp [roundBits]
  have hl : Int.log 2 |(i : ℚ)| = (Nat.log 2 i : Int) := by
    rw [abs_of_nonneg (Nat.cast_nonneg _), Int.log_natCast]
  have hlp : Nat.log 2 i < p := Nat.log_lt_of_lt_pow h0.ne' h
  have hu : ulp p (i : ℚ) = (2 ^ (p - 1 - Nat.log 2 i))⁻¹ := by
    unfold ulp
    rw [hl, ← zpow_natCast, ← zpow_neg]
    congr 1
    omega
  unfold roundBits
  rw [hu, div_inv_eq_mul, show (i : ℚ) * 2 ^ (p - 1 - Nat.log 2 i) =
    ((i * 2 ^ (p - 1 - Nat.log 2 i) : Nat) : ℚ) by push_cast; rfl, Int.floor_natCast]
  push_cast
  rw [mul_assoc, mul_inv_cancel₀ (by positivity), mul_one]

theorem bitOps_whole (p e n : Nat) (hp : n ≤ 2 ^ p) (he : n ≤ 2 ^ e) :
    @ExactWhole (ExtNum ℚ) ℚ (bitOps p e) _ _ _ value (fun a => ¬ Nonfinite a) n := by
  let _ := bitOps p e
  refine ⟨⟨fun h => h, rfl⟩, ?_, fun i hi => ⟨_, rfl, ?_, ?_⟩⟩
  · rintro (a | _ | _) ha h1 h2 <;> first | exact absurd trivial ha | skip
    have ht : truncZ ((⌊a⌋ : Int) : ℚ) = ⌊a⌋ := by unfold truncZ; split <;> simp
    show (if isizeMin ≤ truncZ ((⌊a⌋ : Int) : ℚ) ∧ truncZ ((⌊a⌋ : Int) : ℚ) ≤ isizeMax then
      some (truncZ ((⌊a⌋ : Int) : ℚ)) else none) = _
    rw [ht, if_pos ⟨h1, h2⟩]; rfl
  all_goals
    have hle : ¬ (2 : ℚ) ^ e < |(i : ℚ)| := by
      rw [abs_of_nonneg (Nat.cast_nonneg _), not_lt]
      exact_mod_cast (by omega : i ≤ 2 ^ e)
    simp only [roundTo, if_neg hle, roundBits_natCast p i (by omega)]
  · exact fun h => h
  · rfl

/-! ### All laws at once

The floats proper: numbers with `p` significant bits and size at most `2^e`. -/

/-- The number is not changed by rounding. -/
def IsFloat (p e : Nat) : ExtNum ℚ → Prop
  | fin a => roundBits p a = a ∧ |a| ≤ 2 ^ e
  | _ => False

instance (p e : Nat) (a : ExtNum ℚ) : Decidable (IsFloat p e a) := by
  cases a <;> unfold IsFloat <;> infer_instance

theorem ulp_pos (p : Nat) (a : ℚ) : 0 < ulp p a := zpow_pos (by norm_num) _

/-- Multiples of a power of 2 by a number of at most `p` bits are not changed by rounding. -/
theorem roundBits_of_mul {p : Nat} (hp : 0 < p) {m j : Int} (hm : |m| ≤ 2 ^ p) :
    roundBits p (m * 2 ^ j : ℚ) = m * 2 ^ j := by
  have key : ∀ (m j : Int), |m| < 2 ^ p → roundBits p (m * 2 ^ j : ℚ) = m * 2 ^ j := by
    intro m j hm
    rcases eq_or_ne m 0 with rfl | h0
    · simp [roundBits]
    have hj : (0 : ℚ) < 2 ^ j := zpow_pos (by norm_num) _
    have hq : (m * 2 ^ j : ℚ) ≠ 0 := mul_ne_zero (by exact_mod_cast h0) hj.ne'
    have hlt : |(m * 2 ^ j : ℚ)| < 2 ^ ((p : Int) + j) := by
      rw [abs_mul, abs_of_pos hj, zpow_add₀ (by norm_num),
        zpow_natCast]
      have : (|m| : ℚ) < 2 ^ p := by exact_mod_cast hm
      gcongr
    have hlog : Int.log 2 |(m * 2 ^ j : ℚ)| < p + j :=
      (Int.lt_zpow_iff_log_lt (by norm_num) (abs_pos.2 hq)).1 (by exact_mod_cast hlt)
    obtain ⟨d, hd⟩ : ∃ d : Nat, j = (Int.log 2 |(m * 2 ^ j : ℚ)| - (p - 1 : Int)) + d :=
      ⟨(j - (Int.log 2 |(m * 2 ^ j : ℚ)| - (p - 1 : Int))).toNat, by omega⟩
    have hu : ulp p (m * 2 ^ j : ℚ) * 2 ^ d = 2 ^ j := by
      unfold ulp
      rw [← zpow_natCast, ← zpow_add₀ (by norm_num)]
      exact congrArg _ hd.symm
    have h1 : (m * 2 ^ j : ℚ) / ulp p (m * 2 ^ j : ℚ) = ((m * 2 ^ d : Int) : ℚ) := by
      rw [div_eq_iff (ulp_pos _ _).ne']
      push_cast
      rw [mul_assoc, mul_comm ((2 : ℚ) ^ d), hu]
    unfold roundBits
    rw [h1, Int.floor_intCast, ← h1, div_mul_cancel₀ _ (ulp_pos _ _).ne']
  rcases lt_or_eq_of_le hm with h | h
  · exact key m j h
  · obtain ⟨q, rfl⟩ : ∃ q, p = q + 1 := ⟨p - 1, by omega⟩
    obtain ⟨m', rfl⟩ : ∃ m', m = m' * 2 := by
      rcases (abs_eq (by positivity)).1 h with h | h
      · exact ⟨2 ^ q, by rw [h, pow_succ]⟩
      · exact ⟨-2 ^ q, by rw [h, pow_succ, neg_mul]⟩
    have : ((m' * 2 : Int) * 2 ^ j : ℚ) = m' * 2 ^ (j + 1) := by
      rw [zpow_add₀ (by norm_num), zpow_one]; push_cast; ring
    rw [this]
    refine key m' (j + 1) ?_
    rw [abs_mul, pow_succ] at h
    have : (2 : Int) ^ q > 0 := by positivity
    have h2 : |(2 : Int)| = 2 := rfl
    rw [h2] at h
    rw [pow_succ]
    omega

/-- Rounding yields a float, and does not overflow. -/
theorem roundTo_isFloat {p e : Nat} (hp : 0 < p) {a : ℚ} (ha : |a| ≤ 2 ^ e) :
    IsFloat p e (roundTo p e a) := by
  have e1 : roundTo p e a = fin (roundBits p a) := if_neg (not_lt.2 ha)
  rw [e1]
  rcases eq_or_ne a 0 with rfl | h0
  · simp [IsFloat, roundBits]
  have hu := ulp_pos p a
  have hlt := Int.lt_zpow_succ_log_self (b := 2) (R := ℚ) (by norm_num) |a|
  have hdiv : |a / ulp p a| < 2 ^ p := by
    rw [abs_div, abs_of_pos hu, div_lt_iff₀ hu]
    unfold ulp
    rw [← zpow_natCast, ← zpow_add₀ (by norm_num)]
    refine lt_of_lt_of_eq hlt ?_
    push_cast
    congr 1
    ring
  have hm : |⌊a / ulp p a⌋| ≤ 2 ^ p := by
    have h1 := abs_lt.1 hdiv
    rw [abs_le]
    constructor
    · rw [Int.le_floor]; push_cast; exact h1.1.le
    · have h2 := Int.floor_le (a / ulp p a)
      have : (⌊a / ulp p a⌋ : ℚ) ≤ ((2 ^ p : Int) : ℚ) := by push_cast; linarith
      exact_mod_cast this
  refine ⟨?_, ?_⟩
  · exact roundBits_of_mul hp (m := ⌊a / ulp p a⌋) (j := Int.log 2 |a| - (p - 1 : Int)) hm
  · -- `2^e` is a multiple of the last bit
    have hlog : Int.log 2 |a| ≤ e := by
      have h1 := Int.zpow_log_le_self (b := 2) (R := ℚ) (r := |a|) (by norm_num) (abs_pos.2 h0)
      have h2 : (2 : ℚ) ^ Int.log 2 |a| ≤ 2 ^ (e : Int) := by
        rw [zpow_natCast]; push_cast at h1; linarith
      exact (zpow_le_zpow_iff_right₀ (by norm_num)).1 h2
    obtain ⟨d, hd⟩ : ∃ d : Nat, (e : Int) = (Int.log 2 |a| - (p - 1 : Int)) + d :=
      ⟨((e : Int) - (Int.log 2 |a| - (p - 1 : Int))).toNat, by omega⟩
    have he : ulp p a * 2 ^ d = 2 ^ e := by
      unfold ulp
      rw [← zpow_natCast (2 : ℚ) d, ← zpow_add₀ (by norm_num), ← zpow_natCast (2 : ℚ) e]
      exact congrArg _ hd.symm
    have h1 := abs_le.1 ha
    rw [abs_le]
    unfold roundBits
    have h2 := Int.floor_le (a / ulp p a)
    rw [le_div_iff₀ hu] at h2
    refine ⟨?_, by linarith⟩
    have h3 : (-(2 ^ d : Int)) ≤ ⌊a / ulp p a⌋ := by
      rw [Int.le_floor, le_div_iff₀ hu]
      push_cast
      rw [neg_mul, mul_comm, he]
      exact h1.1
    have h4 : (-(2 ^ d : Int) : ℚ) ≤ ⌊a / ulp p a⌋ := by exact_mod_cast h3
    push_cast at h4
    nlinarith

theorem IsFloat.finite {p e : Nat} {a : ExtNum ℚ} (h : IsFloat p e a) : ¬ Nonfinite a := by
  cases a
  · exact fun h => h
  · exact h.elim
  · exact h.elim

theorem IsFloat.round {p e : Nat} {a : ℚ} (h : IsFloat p e (fin a)) : roundTo p e a = fin a := by
  unfold roundTo
  rw [if_neg (not_lt.2 h.2), h.1]

theorem float_rounds {p e : Nat} (hp : 0 < p) :
    @Rounds (ExtNum ℚ) ℚ (bitOps p e) _ _ value (IsFloat p e) (2 / 2 ^ p) 0 (2 ^ e) := by
  let _ := bitOps p e
  have H := bitOps_rounds p e
  refine ⟨H.u_nonneg, H.η_nonneg, fun a b ha hb h => ?_, fun a b ha hb h => ?_,
    fun a b ha hb h => ?_, fun a b ha hb h0 h => ?_, fun a b c ha hb hc h => ?_⟩
  · refine ⟨?_, (H.add a b ha.finite hb.finite h).2⟩
    cases a <;> cases b <;> first | exact ha.elim | exact hb.elim | skip
    exact roundTo_isFloat hp h
  · refine ⟨?_, (H.sub a b ha.finite hb.finite h).2⟩
    cases a <;> cases b <;> first | exact ha.elim | exact hb.elim | skip
    exact roundTo_isFloat hp (by rw [← sub_eq_add_neg]; exact h)
  · refine ⟨?_, (H.mul a b ha.finite hb.finite h).2⟩
    cases a <;> cases b <;> first | exact ha.elim | exact hb.elim | skip
    exact roundTo_isFloat hp h
  · refine ⟨?_, (H.div a b ha.finite hb.finite h0 h).2⟩
    cases a <;> cases b <;> first | exact ha.elim | exact hb.elim | skip
    next a b =>
    have hd : FloatOps.div (fin a) (fin b) = roundTo p e (a / b) := if_neg (show ¬ b = 0 from h0)
    rw [hd]
    exact roundTo_isFloat hp h
  · refine ⟨?_, (H.mulAdd a b c ha.finite hb.finite hc.finite h).2⟩
    cases a <;> cases b <;> cases c <;> first | exact ha.elim | exact hb.elim | exact hc.elim | skip
    exact roundTo_isFloat hp h

theorem float_compare (p e : Nat) :
    @ExactCompare (ExtNum ℚ) ℚ (bitOps p e) _ value (IsFloat p e) := fun a b ha hb =>
  bitOps_compare p e a b ha.finite hb.finite

theorem float_compareLe (p e : Nat) :
    @ExactCompareLe (ExtNum ℚ) ℚ (bitOps p e) _ value (IsFloat p e) := fun a b ha hb =>
  bitOps_compareLe p e a b ha.finite hb.finite

theorem float_whole {p e n : Nat} (hp : n ≤ 2 ^ p) (he : n ≤ 2 ^ e) :
    @ExactWhole (ExtNum ℚ) ℚ (bitOps p e) _ _ _ value (IsFloat p e) n := by
  let _ := bitOps p e
  have H := bitOps_whole p e n hp he
  refine ⟨⟨by simp [IsFloat, roundBits, FloatOps.zero], rfl⟩, fun a ha => H.toIsize a ha.finite,
    fun i hi => ?_⟩
  have hle : |(i : ℚ)| ≤ 2 ^ e := by
    rw [abs_of_nonneg (Nat.cast_nonneg _)]
    exact_mod_cast (by omega : i ≤ 2 ^ e)
  have e1 : roundTo p e (i : ℚ) = fin (i : ℚ) := by
    unfold roundTo; rw [if_neg (not_lt.2 hle), roundBits_natCast p i (by omega)]
  refine ⟨_, rfl, ?_, ?_⟩
  · show IsFloat p e (roundTo p e (i : ℚ))
    rw [e1]; exact ⟨roundBits_natCast p i (by omega), hle⟩
  · show value (roundTo p e (i : ℚ)) = i
    rw [e1]; rfl

theorem float_exact {p e : Nat} (hp : 0 < p) :
    @ExactIfFloat (ExtNum ℚ) ℚ (bitOps p e) _ value (IsFloat p e) := by
  let _ := bitOps p e
  have key : ∀ (q : ℚ) (c : ExtNum ℚ), IsFloat p e c → q = value c →
      IsFloat p e (roundTo p e q) ∧ value (roundTo p e q) = value c := by
    rintro q c hc rfl
    cases c <;> first | exact hc.elim | skip
    next c =>
    show IsFloat p e (roundTo p e c) ∧ value (roundTo p e c) = c
    rw [hc.round]; exact ⟨hc, rfl⟩
  refine ⟨⟨by simp [IsFloat, roundBits, FloatOps.zero], rfl⟩, ⟨?_, rfl⟩, fun a ha => ?_, ?_, ?_, ?_, ?_, ?_⟩
  · refine ⟨?_, ?_⟩
    · simpa using roundBits_natCast p 1 (Nat.one_lt_two_pow (by omega))
    · rw [abs_one]; exact one_le_pow₀ (by norm_num)
  · cases a <;> first | exact ha.elim | skip
    next a =>
    refine ⟨⟨?_, by rw [abs_neg]; exact ha.2⟩, rfl⟩
    have h1 := ha.1
    unfold roundBits at h1 ⊢
    have h2 : ulp p (-a) = ulp p a := by unfold ulp; rw [abs_neg]
    have hu := ulp_pos p a
    have h3 : a / ulp p a = (⌊a / ulp p a⌋ : Int) := by
      rw [div_eq_iff hu.ne']; exact h1.symm
    rw [h2, neg_div, h3, ← Int.cast_neg, Int.floor_intCast, Int.cast_neg, neg_mul, h1]
  · rintro (a | _ | _) (b | _ | _) c ha hb hc h <;> first | exact ha.elim | exact hb.elim | skip
    exact key _ c hc h
  · rintro (a | _ | _) (b | _ | _) c ha hb hc h <;> first | exact ha.elim | exact hb.elim | skip
    exact key (a + -b) c hc (by rw [← sub_eq_add_neg]; exact h)
  · rintro (a | _ | _) (b | _ | _) c ha hb hc h <;> first | exact ha.elim | exact hb.elim | skip
    exact key _ c hc h
  · rintro (a | _ | _) (b | _ | _) c ha hb hc h0 h <;> first | exact ha.elim | exact hb.elim | skip
    have hd : FloatOps.div (fin a) (fin b) = roundTo p e (a / b) := if_neg (show ¬ b = 0 from h0)
    rw [hd]
    exact key _ c hc h
  · rintro (a | _ | _) (b | _ | _) (c | _ | _) d ha hb hc hd h <;>
      first | exact ha.elim | exact hb.elim | exact hc.elim | skip
    exact key _ d hd h

end ExtNum
end Interpn
