import Verif.Lemmas.IeeeNeg
import Verif.Lemmas.Api
import Verif.Spec.PowerOfTwo

/-! Scaling of coordinates by a power of two commutes with the operations applied to coordinates. -/

set_option autoImplicit false

namespace Interpn
open FloatOps

namespace Format
variable (f : Format)

/-- Weight of the last digit of subnormal numbers: every float is a multiple of it. -/
def Multiple (q : ℚ) : Prop := ∃ m : Int, q = m * 2 ^ (f.emin - (f.p - 1 : Int))

variable {f}

theorem Representable.multiple {q : ℚ} (h : f.Representable q) : f.Multiple q := by
  obtain ⟨m, e, _, he, _, rfl⟩ := h
  obtain ⟨d, rfl⟩ : ∃ d : Nat, e = f.emin - (f.p - 1 : Int) + d :=
    ⟨(e - (f.emin - (f.p - 1 : Int))).toNat, by omega⟩
  refine ⟨m * 2 ^ d, ?_⟩
  rw [zpow_add₀ (by norm_num)]
  push_cast
  rw [zpow_natCast]
  ring

theorem Multiple.add {a b : ℚ} (ha : f.Multiple a) (hb : f.Multiple b) : f.Multiple (a + b) := by
  obtain ⟨m, rfl⟩ := ha
  obtain ⟨n, rfl⟩ := hb
  exact ⟨m + n, by push_cast; ring⟩

theorem Multiple.mul_int {a : ℚ} (ha : f.Multiple a) (z : Int) : f.Multiple (a * z) := by
  obtain ⟨m, rfl⟩ := ha
  exact ⟨m * z, by push_cast; ring⟩

/-- Rounding commutes with multiplication by a power of two in the normal range. -/
theorem roundQ_scale_normal (k : Nat) {q : ℚ} (h0 : q ≠ 0) (hl : f.emin ≤ Int.log 2 |q|) :
    f.roundQ (2 ^ k * q) = 2 ^ k * f.roundQ q := by
  have h2 : (0 : ℚ) < 2 ^ k := by positivity
  have habs : |(2 : ℚ) ^ k * q| = |q| * 2 ^ k := by rw [abs_mul, abs_of_pos h2, mul_comm]
  have hlog : Int.log 2 |(2 : ℚ) ^ k * q| = Int.log 2 |q| + k := by
    rw [habs]
    have hq : 0 < |q| := abs_pos.2 h0
    have e1 := Int.zpow_log_le_self (b := 2) (by norm_num) hq
    have e2 := Int.lt_zpow_succ_log_self (b := 2) (by norm_num) |q|
    push_cast at e1 e2
    apply le_antisymm
    · have : Int.log 2 (|q| * 2 ^ k) < Int.log 2 |q| + 1 + k := by
        rw [← Int.lt_zpow_iff_log_lt (by norm_num) (by positivity)]
        push_cast
        rw [zpow_add₀ (by norm_num), zpow_natCast]
        gcongr
      omega
    · rw [← Int.zpow_le_iff_le_log (by norm_num) (by positivity)]
      push_cast
      rw [zpow_add₀ (by norm_num), zpow_natCast]
      gcongr
  have hqu : f.quantum (2 ^ k * q) = 2 ^ k * f.quantum q := by
    unfold Format.quantum
    rw [hlog, max_eq_left (by omega), max_eq_left hl, ← zpow_natCast, ← zpow_add₀ (by norm_num)]
    congr 1
    ring
  unfold Format.roundQ
  rw [hqu, mul_div_mul_left _ _ h2.ne']
  ring

/-- Rounding commutes with multiplication by a power of two, if the number has no digits below the
subnormal range. -/
theorem roundQ_scale (k : Nat) {q : ℚ} (h : f.Multiple q) :
    f.roundQ (2 ^ k * q) = 2 ^ k * f.roundQ q := by
  rcases eq_or_ne q 0 with rfl | h0
  · simp [f.roundQ_zero]
  by_cases hl : f.emin ≤ Int.log 2 |q|
  · exact roundQ_scale_normal k h0 hl
  · obtain ⟨m, hm⟩ := h
    have hlt : |q| < 2 ^ f.emin := by
      have := (Int.lt_zpow_iff_log_lt (b := 2) (by norm_num) (abs_pos.2 h0)).2 (not_le.1 hl)
      exact_mod_cast this
    have hmp : |m| < 2 ^ f.p := by
      have hp := f.two_le_p
      rw [hm, abs_mul, abs_of_pos (zpow_pos (by norm_num : (0 : ℚ) < 2) _)] at hlt
      have : (2 : ℚ) ^ f.emin = 2 ^ ((f.p : Int) - 1) * 2 ^ (f.emin - (f.p - 1 : Int)) := by
        rw [← zpow_add₀ (by norm_num)]; congr 1; ring
      rw [this] at hlt
      have h3 := lt_of_mul_lt_mul_right hlt (zpow_pos (by norm_num) _).le
      have h4 : (2 : ℚ) ^ ((f.p : Int) - 1) ≤ 2 ^ (f.p : Int) :=
        zpow_le_zpow_right₀ (by norm_num) (by omega)
      rw [zpow_natCast] at h4
      exact_mod_cast lt_of_lt_of_le h3 h4
    rw [f.roundQ_of_multiple hm (f.quantum_le hm hmp le_rfl h0)]
    have hk : (2 : ℚ) ^ k * q = m * 2 ^ (f.emin - (f.p - 1 : Int) + k) := by
      rw [hm, zpow_add₀ (by norm_num), zpow_natCast]; ring
    exact f.roundQ_of_multiple hk (f.quantum_le hk hmp (by omega) (by positivity))

/-- A quarter, or any `2^-j` fraction down to the normal range, of the largest float is a float. -/
theorem omega_frac_repr (j : Nat) (hj : j ≤ 2) : f.Representable (f.omega / 2 ^ j) := by
  have h1 := f.two_le_p
  have h2 := f.p_le_emax
  refine ⟨2 ^ f.p - 1, (f.emax : Int) - (f.p - 1) - j, ?_, ?_, ?_, ?_⟩
  · have : (1 : Int) ≤ 2 ^ f.p := one_le_pow₀ (by norm_num)
    rw [abs_of_nonneg (by omega)]; omega
  · unfold Format.emin; omega
  · omega
  · unfold Format.omega
    push_cast
    rw [zpow_sub₀ (by norm_num) _ (j : Int), zpow_natCast]
    ring

end Format

namespace Ieee
variable {f : Format}

theorem scaledBy_zero (k : Nat) : ScaledBy k (zero : Ieee f) zero := ⟨rfl, by simp⟩

/-- Rounding a number that fits the format in both units. -/
theorem rnd_scaled (k : Nat) (s : Bool) {q : ℚ} (h : f.Multiple q) (hb : |2 ^ k * q| ≤ f.omega) :
    ScaledBy k (rnd f s q) (rnd f s (2 ^ k * q)) := by
  have h2 : (1 : ℚ) ≤ 2 ^ k := one_le_pow₀ (by norm_num)
  have hb' : |q| ≤ f.omega := by
    rw [abs_mul, abs_of_pos (by positivity)] at hb
    nlinarith [abs_nonneg q]
  have e1 := f.roundQ_in_range hb
  have e2 := f.roundQ_in_range hb'
  unfold rnd
  rw [dif_pos e1, dif_pos e2]
  refine ⟨?_, Format.roundQ_scale k h⟩
  by_cases h0 : q = 0
  · simp [h0]
  · have hp : (0 : ℚ) < 2 ^ k := by positivity
    have : (2 : ℚ) ^ k * q ≠ 0 := mul_ne_zero hp.ne' h0
    rw [if_neg h0, if_neg this, decide_eq_decide]
    constructor
    · intro h; nlinarith
    · intro h; nlinarith

theorem ScaledBy.neg {k : Nat} {a a' : Ieee f} (h : ScaledBy k a a') :
    ScaledBy k (-. a) (-. a') := by
  cases a <;> cases a' <;> (try exact h.elim)
  · obtain ⟨h1, h2⟩ := h
    exact ⟨by rw [h1], by rw [h2]; ring⟩
  · exact congrArg (! ·) h
  · trivial

theorem ScaledBy.add {k : Nat} {a a' b b' : Ieee f} (ha : ScaledBy k a a') (hb : ScaledBy k b b')
    (hB : |val a' + val b'| ≤ f.omega) : ScaledBy k (a +. b) (a' +. b') := by
  cases a <;> cases a' <;> (try exact ha.elim) <;> cases b <;> cases b' <;> (try exact hb.elim)
  · next s q hr hs s' q' hr' hs' t r gr gs t' r' gr' gs' =>
    obtain ⟨rfl, rfl⟩ := ha
    obtain ⟨rfl, rfl⟩ := hb
    have e : (2 : ℚ) ^ k * q + 2 ^ k * r = 2 ^ k * (q + r) := by ring
    have : ScaledBy k (rnd f (s' && t') (q + r)) (rnd f (s' && t') (2 ^ k * q + 2 ^ k * r)) := by
      rw [e]
      exact rnd_scaled k _ (hr.multiple.add gr.multiple) (by rw [← e]; exact hB)
    exact this
  all_goals first | exact trivial | exact ha | exact hb | skip
  cases ha
  cases hb
  next s t =>
  show ScaledBy k (if s = t then inf s else nan) (if s = t then inf s else nan)
  split
  · rfl
  · trivial

theorem val_neg (a : Ieee f) : val (-. a) = -val a := by
  cases a
  · rfl
  · exact neg_zero.symm
  · exact neg_zero.symm

theorem ScaledBy.sub {k : Nat} {a a' b b' : Ieee f} (ha : ScaledBy k a a') (hb : ScaledBy k b b')
    (hB : |val a' - val b'| ≤ f.omega) : ScaledBy k (a -. b) (a' -. b') :=
  ha.add hb.neg (by
    rw [show val (Ieee.neg b') = -val b' from val_neg b', ← sub_eq_add_neg]; exact hB)

theorem ScaledBy.div {k : Nat} {a a' b b' : Ieee f} (ha : ScaledBy k a a') (hb : ScaledBy k b b') :
    a' /. b' = a /. b := by
  have hp : (2 : ℚ) ^ k ≠ 0 := by positivity
  cases a <;> cases a' <;> (try exact ha.elim) <;> cases b <;> cases b' <;> (try exact hb.elim)
  · next s q hr hs s' q' hr' hs' t r gr gs t' r' gr' gs' =>
    obtain ⟨rfl, rfl⟩ := ha
    obtain ⟨rfl, rfl⟩ := hb
    show (if 2 ^ k * r = 0 then (if 2 ^ k * q = 0 then nan else inf (xor s' t')) else
      rnd f (xor s' t') (2 ^ k * q / (2 ^ k * r))) = (if r = 0 then (if q = 0 then nan else
      inf (xor s' t')) else rnd f (xor s' t') (q / r))
    simp only [mul_eq_zero, hp, false_or, mul_div_mul_left _ _ hp]
  · obtain ⟨rfl, rfl⟩ := ha
    cases hb
    rfl
  · rfl
  · cases ha
    obtain ⟨rfl, rfl⟩ := hb
    rfl
  all_goals rfl

theorem ScaledBy.lt {k : Nat} {a a' b b' : Ieee f} (ha : ScaledBy k a a') (hb : ScaledBy k b b') :
    (a' <. b') = (a <. b) := by
  have hp : (0 : ℚ) < 2 ^ k := by positivity
  cases a <;> cases a' <;> (try exact ha.elim) <;> cases b <;> cases b' <;> (try exact hb.elim)
  · obtain ⟨rfl, rfl⟩ := ha
    obtain ⟨rfl, rfl⟩ := hb
    exact decide_eq_decide.2 (mul_lt_mul_iff_right₀ hp)
  all_goals first | rfl | (cases ha; cases hb; rfl)

theorem ScaledBy.le {k : Nat} {a a' b b' : Ieee f} (ha : ScaledBy k a a') (hb : ScaledBy k b b') :
    (a' <=. b') = (a <=. b) := by
  have hp : (0 : ℚ) < 2 ^ k := by positivity
  cases a <;> cases a' <;> (try exact ha.elim) <;> cases b <;> cases b' <;> (try exact hb.elim)
  · obtain ⟨rfl, rfl⟩ := ha
    obtain ⟨rfl, rfl⟩ := hb
    exact decide_eq_decide.2 (mul_le_mul_iff_right₀ hp)
  all_goals first | rfl | (cases ha; cases hb; rfl)

/-- The conversion of a count is a whole number at most twice as large. -/
theorem roundQ_nat (n : Nat) : (∃ z : Int, f.roundQ (n : ℚ) = z) ∧ |f.roundQ (n : ℚ)| ≤ 2 * n := by
  constructor
  · by_cases hn : (n : Int) ≤ 2 ^ f.p
    · exact ⟨n, by
        have := f.roundQ_repr (f.intCast_repr (z := n) (by rw [abs_of_nonneg (by omega)]; exact hn))
        exact_mod_cast this⟩
    · have h0 : (0 : ℚ) < n := by
        have : (0 : Int) < 2 ^ f.p := by positivity
        exact_mod_cast (show (0 : Int) < n by omega)
      have hlog : (f.p : Int) ≤ Int.log 2 |(n : ℚ)| := by
        rw [← Int.zpow_le_iff_le_log (by norm_num) (by positivity), abs_of_pos h0]
        push_cast
        rw [zpow_natCast]
        exact_mod_cast (not_le.1 hn).le
      obtain ⟨d, hd⟩ : ∃ d : Nat, max (Int.log 2 |(n : ℚ)|) f.emin - (f.p - 1 : Int) = d :=
        ⟨(max (Int.log 2 |(n : ℚ)|) f.emin - (f.p - 1 : Int)).toNat, by omega⟩
      refine ⟨roundHalfEven ((n : ℚ) / f.quantum n) * 2 ^ d, ?_⟩
      unfold Format.roundQ
      push_cast
      congr 1
      unfold Format.quantum
      rw [hd, zpow_natCast]
  · rcases Nat.eq_zero_or_pos n with rfl | h
    · simp [f.roundQ_zero]
    · have h1 : (1 : ℚ) ≤ n := by exact_mod_cast h
      have e := f.roundQ_err (n : ℚ)
      have hu : f.unitRoundoff ≤ 1 / 4 := by
        unfold Format.unitRoundoff
        have : (2 : ℚ) ^ 2 ≤ 2 ^ f.p := pow_le_pow_right₀ (by norm_num) f.two_le_p
        exact one_div_le_one_div_of_le (by norm_num) (by linarith)
      have hη : f.underflow ≤ 1 / 2 := by
        unfold Format.underflow Format.emin
        have := f.two_le_p
        calc (2 : ℚ) ^ ((1 : Int) - f.emax - f.p) ≤ 2 ^ (-1 : Int) :=
              zpow_le_zpow_right₀ (by norm_num) (by omega)
          _ = 1 / 2 := by norm_num
      have ha : |(n : ℚ)| = n := abs_of_nonneg (by positivity)
      rw [ha] at e
      have : |f.roundQ (n : ℚ)| ≤ |f.roundQ (n : ℚ) - n| + |(n : ℚ)| := by
        have := abs_add_le (f.roundQ (n : ℚ) - n) n
        rwa [sub_add_cancel] at this
      rw [ha] at this
      nlinarith

/-- The values of counts. -/
def Count (n : Nat) (c : Ieee f) : Prop :=
  (∃ z : Int, val c = z) ∧ |val c| ≤ 2 * n

theorem count_rnd (n : Nat) : Count n (rnd f false (n : ℚ)) := by
  unfold rnd
  split
  · exact roundQ_nat n
  · exact ⟨⟨0, by simp [val]⟩, by simp [val]⟩

theorem abs_val_rnd_le (s : Bool) {q c : ℚ} (hc : f.Representable c) (h : |q| ≤ c) :
    |val (rnd f s q)| ≤ c := by
  obtain ⟨_, h1, h2⟩ := rnd_between s hc.neg hc (abs_le.1 h).1 (abs_le.1 h).2
  exact abs_le.2 ⟨h1, h2⟩

theorem abs_val_mul_le {a b : Ieee f} {c : ℚ} (hc : f.Representable c) (h : |val a * val b| ≤ c) :
    |val (a *. b)| ≤ c := by
  have h0 : 0 ≤ c := (abs_nonneg _).trans h
  have hz : |(0 : ℚ)| ≤ c := by simpa using h0
  have hite : ∀ (P : Prop) [Decidable P] (t : Bool), |val (if P then (nan : Ieee f) else inf t)| ≤ c := by
    intro P _ t
    split <;> exact hz
  cases a with
  | fin s q _ _ =>
    cases b with
    | fin t r _ _ => exact abs_val_rnd_le _ hc h
    | inf t => exact hite (q = 0) _
    | nan => exact hz
  | inf s =>
    cases b with
    | fin t r _ _ => exact hite (r = 0) _
    | inf t => exact hz
    | nan => exact hz
  | nan => exact hz

theorem abs_val_add_le {a b : Ieee f} {c : ℚ} (hc : f.Representable c) (ha : |val a| + |val b| ≤ c) :
    |val (a +. b)| ≤ c := by
  have h0 : 0 ≤ c := by
    have := abs_nonneg (val a); have := abs_nonneg (val b); linarith
  have hz : |(0 : ℚ)| ≤ c := by simpa using h0
  cases a <;> cases b
  · exact abs_val_rnd_le _ hc ((abs_add_le _ _).trans ha)
  all_goals first
    | exact hz
    | (next s t => show |val (if s = t then _ else _)| ≤ c; split <;> exact hz)

theorem ScaledBy.mul {k n : Nat} {a a' c : Ieee f} (ha : ScaledBy k a a') (hc : Count n c)
    (hB : |val a' * val c| ≤ f.omega) : ScaledBy k (a *. c) (a' *. c) := by
  have hp : (2 : ℚ) ^ k ≠ 0 := by positivity
  obtain ⟨⟨z, hz⟩, -⟩ := hc
  cases a <;> cases a' <;> (try exact ha.elim) <;> cases c
  · next s q hr hs s' q' hr' hs' t r gr gs =>
    obtain ⟨rfl, rfl⟩ := ha
    have hz' : r = z := hz
    have e : (2 : ℚ) ^ k * q * r = 2 ^ k * (q * r) := by ring
    have : ScaledBy k (rnd f (xor s' t) (q * r)) (rnd f (xor s' t) (2 ^ k * q * r)) := by
      rw [e]
      refine rnd_scaled k _ ?_ (by rw [← e]; exact hB)
      rw [hz']
      exact hr.multiple.mul_int z
    exact this
  · next s q hr hs s' q' hr' hs' t =>
    obtain ⟨rfl, rfl⟩ := ha
    show ScaledBy k (if q = 0 then nan else inf (xor s' t))
      (if 2 ^ k * q = 0 then nan else inf (xor s' t))
    simp only [mul_eq_zero, hp, false_or]
    split
    · trivial
    · rfl
  · trivial
  · cases ha
    next s t r _ _ =>
    show ScaledBy k (if r = 0 then nan else inf (xor s t)) (if r = 0 then nan else inf (xor s t))
    split
    · trivial
    · rfl
  · cases ha
    exact rfl
  all_goals trivial

theorem ScaledBy.mulAdd {k n : Nat} {a a' b b' c : Ieee f} (ha : ScaledBy k a a')
    (hb : ScaledBy k b b') (hc : Count n c) (hB : |val a' * val c| + |val b'| ≤ f.omega) :
    ScaledBy k (FloatOps.mulAdd a c b) (FloatOps.mulAdd a' c b') := by
  have h1 : |val a' * val c| ≤ f.omega := by have := abs_nonneg (val b'); linarith
  have hfin : Finite a' ↔ Finite a := by
    cases a <;> cases a' <;> (try exact ha.elim) <;> simp [Finite]
  by_cases h : Finite a ∧ Finite c
  · have h' : Finite a' := hfin.2 h.1
    obtain ⟨sc, qc, rc, wc, rfl⟩ := h.2.cases
    obtain ⟨sa, qa, ra, wa, rfl⟩ := h.1.cases
    obtain ⟨sa', qa', ra', wa', rfl⟩ := h'.cases
    obtain ⟨rfl, rfl⟩ := ha
    obtain ⟨⟨z, hz⟩, -⟩ := hc
    have hz' : qc = z := hz
    cases b <;> cases b' <;> (try exact hb.elim)
    · next s q hr hs s' q' hr' hs' =>
      obtain ⟨rfl, rfl⟩ := hb
      have e : (2 : ℚ) ^ k * qa * qc + 2 ^ k * q = 2 ^ k * (qa * qc + q) := by ring
      have : ScaledBy k (rnd f (xor sa' sc && s') (qa * qc + q))
          (rnd f (xor sa' sc && s') (2 ^ k * qa * qc + 2 ^ k * q)) := by
        rw [e]
        refine rnd_scaled k _ ?_ (by rw [← e]; exact (abs_add_le _ _).trans hB)
        rw [hz']
        exact (ra.multiple.mul_int z).add hr.multiple
      exact this
    · exact hb
    · trivial
  · have h' : ¬ (Finite a' ∧ Finite c) := by rwa [hfin]
    show ScaledBy k (Ieee.mulAdd a c b) (Ieee.mulAdd a' c b')
    rw [mulAdd_not_fin _ h, mulAdd_not_fin _ h']
    refine (ha.mul hc h1).add hb ?_
    have : val (a' *. c) = 0 := by
      cases a'
      · cases c
        · exact absurd ⟨trivial, trivial⟩ h'
        · show val (if _ then _ else _) = 0
          split <;> rfl
        · rfl
      · cases c
        · show val (if _ then _ else _) = 0
          split <;> rfl
        · rfl
        · rfl
      · rfl
    rw [this, zero_add]
    have := abs_nonneg (val a' * val c)
    linarith

/-- Coordinate of node number `c` on a regular axis, as the code computes it. -/
theorem ScaledBy.node {k n : Nat} {start start' step step' c : Ieee f} (fma : Bool)
    (hs : ScaledBy k start start') (hp : ScaledBy k step step') (hc : Count n c)
    (b1 : |val start'| ≤ f.omega / 8) (b2 : |val step'| * n ≤ f.omega / 8) :
    ScaledBy k (if fma then FloatOps.mulAdd step c start else start +. step *. c)
      (if fma then FloatOps.mulAdd step' c start' else start' +. step' *. c) ∧
    |val (if fma then FloatOps.mulAdd step' c start' else start' +. step' *. c)| ≤ f.omega / 2 := by
  have hΩ := f.omega_pos
  have hm : |val step' * val c| ≤ f.omega / 4 := by
    rw [abs_mul]
    calc |val step'| * |val c| ≤ |val step'| * (2 * n) :=
          mul_le_mul_of_nonneg_left hc.2 (abs_nonneg _)
      _ = 2 * (|val step'| * n) := by ring
      _ ≤ f.omega / 4 := by linarith
  have r2 : f.Representable (f.omega / 2) := by simpa using f.omega_frac_repr 1 (by omega)
  have r4 : f.Representable (f.omega / 4) := by
    have := f.omega_frac_repr 2 le_rfl
    norm_num at this
    exact this
  have hm' := abs_val_mul_le r4 hm
  cases fma
  · simp only [Bool.false_eq_true, if_false]
    refine ⟨hs.add (hp.mul hc (by linarith)) ?_, abs_val_add_le r2 (by linarith)⟩
    exact (abs_add_le _ _).trans (by linarith)
  · simp only [if_true]
    refine ⟨hp.mulAdd hs hc (by linarith), ?_⟩
    by_cases h : Finite step' ∧ Finite c
    · by_cases h3 : Finite start'
      · obtain ⟨s, e⟩ := mulAdd_fin h.1 h.2 h3
        rw [e]
        exact abs_val_rnd_le _ r2 ((abs_add_le _ _).trans (by linarith))
      · obtain ⟨sc, qc, rc, wc, rfl⟩ := h.2.cases
        obtain ⟨sa, qa, ra, wa, rfl⟩ := h.1.cases
        cases start'
        · exact absurd trivial h3
        · show |(0 : ℚ)| ≤ _
          simp only [abs_zero]; linarith
        · show |(0 : ℚ)| ≤ _
          simp only [abs_zero]; linarith
    · show |val (Ieee.mulAdd step' c start')| ≤ _
      rw [mulAdd_not_fin _ h]
      exact abs_val_add_le r2 (show |val (step' *. c)| + _ ≤ _ by linarith)

section Axis
variable {k dim : Nat} {start start' step step' x x' : Ieee f}

theorem rawCell_scaled (hs : ScaledBy k start start') (hp : ScaledBy k step step')
    (hx : ScaledBy k x x') (b1 : |val start'| ≤ f.omega / 8) (b3 : |val x'| ≤ f.omega / 8) :
    rawCell start' step' x' = rawCell start step x := by
  have hΩ := f.omega_pos
  unfold rawCell
  rw [(hx.sub hs ((abs_sub _ _).trans (by linarith))).div hp]

theorem linRegAxis_scaled (fma : Bool) (hs : ScaledBy k start start') (hp : ScaledBy k step step')
    (hx : ScaledBy k x x') (b1 : |val start'| ≤ f.omega / 8)
    (b2 : |val step'| * dim ≤ f.omega / 8) (b3 : |val x'| ≤ f.omega / 8) :
    linRegAxis fma dim start' step' x' = linRegAxis fma dim start step x := by
  have hΩ := f.omega_pos
  unfold linRegAxis
  rw [rawCell_scaled hs hp hx b1 b3]
  cases rawCell start step x with
  | none => rfl
  | some z =>
    have hle : ((clampIdx z (dim - 2) : Nat) : ℚ) ≤ dim := by
      exact_mod_cast (clampIdx_le z (dim - 2)).trans (by omega)
    obtain ⟨h1, h2⟩ := hs.node fma hp (count_rnd (clampIdx z (dim - 2))) b1
      ((mul_le_mul_of_nonneg_left hle (abs_nonneg _)).trans b2)
    have h3 := (hx.sub h1 ((abs_sub _ _).trans (by linarith))).div hp
    exact congrArg (fun t => some (clampIdx z (dim - 2), t)) h3

theorem cubRegAxis_scaled (hd : 4 ≤ dim) (hs : ScaledBy k start start')
    (hp : ScaledBy k step step')
    (hx : ScaledBy k x x') (b1 : |val start'| ≤ f.omega / 8)
    (b2 : |val step'| * dim ≤ f.omega / 8) (b3 : |val x'| ≤ f.omega / 8) :
    cubRegAxis dim start' step' x' = cubRegAxis dim start step x := by
  have hΩ := f.omega_pos
  unfold cubRegAxis
  rw [rawCell_scaled hs hp hx b1 b3]
  cases rawCell start step x with
  | none => rfl
  | some z =>
    by_cases hz : z = isizeMin
    · simp only [hz, if_true]
    simp only [hz, if_false]
    have hle : ((clampIdx (z - 1) (dim - 4) + 1 : Nat) : ℚ) ≤ dim := by
      have := clampIdx_le (z - 1) (dim - 4)
      exact_mod_cast (show _ + 1 ≤ dim by omega)
    obtain ⟨h1, h2⟩ := hs.node false hp (count_rnd (clampIdx (z - 1) (dim - 4) + 1)) b1
      ((mul_le_mul_of_nonneg_left hle (abs_nonneg _)).trans b2)
    have h3 := (hx.sub h1 ((abs_sub _ _).trans (by linarith))).div hp
    exact congrArg (fun t => Res.ok (clampIdx (z - 1) (dim - 4), satRegular dim z, t)) h3

end Axis

section Search
variable {T T' : Type}

theorem bisectLoop_congr {s : List T} {s' : List T'} {pred : T → Bool} {pred' : T' → Bool}
    (h : ∀ i : Nat, (s[i]?).any pred = (s'[i]?).any pred') (size : Nat) :
    ∀ base calls, bisectLoop s pred size base calls = bisectLoop s' pred' size base calls := by
  induction size using Nat.strong_induction_on with
  | _ size ih =>
    intro base calls
    rw [bisectLoop.eq_def s, bisectLoop.eq_def s']
    split
    · simp only [h]
      exact ih _ (by omega) _ _
    · rfl

theorem partitionPoint_congr {s : List T} {s' : List T'} {pred : T → Bool} {pred' : T' → Bool}
    (hl : s.length = s'.length) (h : ∀ i : Nat, (s[i]?).any pred = (s'[i]?).any pred') :
    partitionPoint s pred = partitionPoint s' pred' := by
  unfold partitionPoint partitionPointCounted
  rw [hl]
  split
  · rfl
  · simp only [h, bisectLoop_congr h]

end Search

section Grid
variable {k : Nat} {grid grid' : List (Ieee f)} {x x' : Ieee f}

theorem getD_scaled (hg : List.Forall₂ (ScaledBy k) grid grid') (i : Nat) :
    ScaledBy k (grid.getD i zero) (grid'.getD i zero) := by
  have hl := hg.length_eq
  by_cases hi : i < grid.length
  · rw [List.getD_eq_getElem _ _ hi, List.getD_eq_getElem _ _ (hl ▸ hi)]
    exact (List.forall₂_iff_get.1 hg).2 i hi (hl ▸ hi)
  · rw [List.getD_eq_default _ _ (by omega), List.getD_eq_default _ _ (by omega)]
    exact scaledBy_zero k

theorem getD_bound {c : ℚ} (hc : 0 ≤ c) (hb : ∀ a ∈ grid, |val a| ≤ c) (i : Nat) :
    |val (grid.getD i zero)| ≤ c := by
  by_cases hi : i < grid.length
  · rw [List.getD_eq_getElem _ _ hi]
    exact hb _ (List.getElem_mem _)
  · rw [List.getD_eq_default _ _ (by omega)]
    rw [zero_eq.2, abs_zero]
    exact hc

theorem any_scaled (hg : List.Forall₂ (ScaledBy k) grid grid') {pred pred' : Ieee f → Bool}
    (hp : ∀ a a', ScaledBy k a a' → pred' a' = pred a) (i : Nat) :
    (grid'[i]?).any pred' = (grid[i]?).any pred := by
  have hl := hg.length_eq
  by_cases hi : i < grid.length
  · rw [List.getElem?_eq_getElem hi, List.getElem?_eq_getElem (hl ▸ hi)]
    exact hp _ _ ((List.forall₂_iff_get.1 hg).2 i hi (hl ▸ hi))
  · rw [List.getElem?_eq_none (by omega), List.getElem?_eq_none (by omega)]
    rfl

theorem cellsBelow_scaled (hg : List.Forall₂ (ScaledBy k) grid grid') (hx : ScaledBy k x x') :
    cellsBelow grid' x' = cellsBelow grid x :=
  partitionPoint_congr hg.length_eq.symm fun i => any_scaled hg (fun _ _ h => h.lt hx) i

theorem linCell_scaled (hg : List.Forall₂ (ScaledBy k) grid grid') (hx : ScaledBy k x x') :
    linCell grid' x' = linCell grid x := by
  unfold linCell
  rw [cellsBelow_scaled hg hx, hg.length_eq]

theorem cubCell_scaled (hg : List.Forall₂ (ScaledBy k) grid grid') (hx : ScaledBy k x x') :
    cubCell grid' x' = cubCell grid x := by
  unfold cubCell
  rw [cellsBelow_scaled hg hx, hg.length_eq]

variable (hg : List.Forall₂ (ScaledBy k) grid grid') (hx : ScaledBy k x x')
  (hb : ∀ a ∈ grid', |val a| ≤ f.omega / 2) (hbx : |val x'| ≤ f.omega / 2)
include hg hx hb hbx

theorem sub_scaled (i : Nat) : ScaledBy k (x -. grid.getD i zero) (x' -. grid'.getD i zero) := by
  have := getD_bound (half_pos f.omega_pos).le hb i
  exact hx.sub (getD_scaled hg i) ((abs_sub _ _).trans (by linarith))

omit hx hbx in
theorem width_scaled (i j : Nat) : ScaledBy k (grid.getD i zero -. grid.getD j zero)
    (grid'.getD i zero -. grid'.getD j zero) := by
  have := getD_bound (half_pos f.omega_pos).le hb i
  have := getD_bound (half_pos f.omega_pos).le hb j
  exact (getD_scaled hg i).sub (getD_scaled hg j) ((abs_sub _ _).trans (by linarith))

theorem cellPos_scaled (o : Nat) : cellPos (fun i => grid'.getD i zero) o x' =
    cellPos (fun i => grid.getD i zero) o x :=
  (sub_scaled hg hx hb hbx o).div (width_scaled hg hb (o + 1) o)

theorem linRule_scaled (fma : Bool) : linRule fma grid' x' = linRule fma grid x := by
  funext v
  unfold linRule
  rw [linCell_scaled hg hx, cellPos_scaled hg hx hb hbx]

theorem nearRectAxis_scaled : nearRectAxis grid' x' = nearRectAxis grid x := by
  unfold nearRectAxis
  rw [linCell_scaled hg hx, cellPos_scaled hg hx hb hbx]

theorem cubRectRule_scaled (fma fk fl lin : Bool) :
    cubRectRule fma fk fl lin grid' x' = cubRectRule fma fk fl lin grid x := by
  funext v
  unfold cubRectRule
  rw [cubCell_scaled hg hx, cellsBelow_scaled hg hx, hg.length_eq]
  have hw := fun p q r s : Nat => (width_scaled hg hb p q).div (width_scaled hg hb r s)
  have ht := fun p r s : Nat => (sub_scaled hg hx hb hbx p).div (width_scaled hg hb r s)
  have hn := fun p r s : Nat => (sub_scaled hg hx hb hbx p).neg.div (width_scaled hg hb r s)
  unfold cubicInnerRectilinear
  cases satRectilinear grid'.length (cellsBelow grid x) <;> simp only [hw, ht, hn]

end Grid

section Checks
variable {N : Nat} {k : Fin N → Nat} {grids grids' : Fin N → List (Ieee f)}

theorem firstPairIncreasing_scaled {k : Nat} {g g' : List (Ieee f)}
    (h : List.Forall₂ (ScaledBy k) g g') : firstPairIncreasing g' = firstPairIncreasing g := by
  cases h with
  | nil => rfl
  | cons h0 h =>
    cases h with
    | nil => rfl
    | cons h1 h =>
      show Res.ok _ = Res.ok _
      exact congrArg Res.ok (h0.lt h1)

theorem allFirstPairs_scaled {gs gs' : List (List (Ieee f))}
    (h : List.Forall₂ (fun g g' => ∃ k, List.Forall₂ (ScaledBy k) g g') gs gs') :
    allFirstPairs gs' = allFirstPairs gs := by
  induction h with
  | nil => rfl
  | cons h0 _ ih =>
    obtain ⟨k, h0⟩ := h0
    simp only [allFirstPairs, firstPairIncreasing_scaled h0, ih]

theorem forall₂_ofFn {α β : Type} {N : Nat} {R : α → β → Prop} {g : Fin N → α} {g' : Fin N → β}
    (h : ∀ j, R (g j) (g' j)) : List.Forall₂ R (List.ofFn g) (List.ofFn g') := by
  rw [List.forall₂_iff_get]
  refine ⟨by simp, fun i h1 h2 => ?_⟩
  simp only [List.get_eq_getElem, List.getElem_ofFn]
  exact h _

theorem lengths_scaled {gs gs' : List (List (Ieee f))}
    (h : List.Forall₂ (fun g g' => ∃ k, List.Forall₂ (ScaledBy k) g g') gs gs') :
    gs'.map List.length = gs.map List.length := by
  induction h with
  | nil => rfl
  | cons h0 _ ih =>
    obtain ⟨k, h0⟩ := h0
    simp only [List.map_cons, ih, h0.length_eq]

theorem checkRectilinear_scaled (m : Nat) (msg : String) (vals : List (Ieee f))
    (hg : ∀ j, List.Forall₂ (ScaledBy (k j)) (grids j) (grids' j)) :
    checkRectilinear m msg (List.ofFn grids') vals = checkRectilinear m msg (List.ofFn grids) vals := by
  have h := forall₂_ofFn (R := fun g g' => ∃ k, List.Forall₂ (ScaledBy k) g g')
    (fun j => ⟨k j, hg j⟩)
  unfold checkRectilinear
  rw [lengths_scaled h, allFirstPairs_scaled h]

theorem checkRegular_scaled (m : Nat) (msg : String) (dims : List Nat) (vals : List (Ieee f))
    {steps steps' : Fin N → Ieee f} (hp : ∀ j, ScaledBy (k j) (steps j) (steps' j)) :
    checkRegular m msg dims (List.ofFn steps') vals =
      checkRegular m msg dims (List.ofFn steps) vals := by
  unfold checkRegular
  have : (List.ofFn steps').all (fun x => zero <. x) = (List.ofFn steps).all fun x => zero <. x := by
    rw [Bool.eq_iff_iff]
    simp only [List.all_eq_true, List.forall_mem_ofFn_iff]
    exact forall_congr' fun j => by rw [(scaledBy_zero (k j)).lt (hp j)]
  rw [this]

end Checks

section Bounds
variable {k : Nat}

/-- Smaller and larger of two coordinates. -/
theorem fmin_scaled {a a' b b' : Ieee f} (ha : ScaledBy k a a') (hb : ScaledBy k b b') :
    ScaledBy k (fmin a b) (fmin a' b') ∧ (fmin a' b' = a' ∨ fmin a' b' = b') ∧
      ScaledBy k (fmax a b) (fmax a' b') ∧ (fmax a' b' = a' ∨ fmax a' b' = b') := by
  have na : ∀ {a a' : Ieee f}, ScaledBy k a a' → (a' = nan ↔ a = nan) := by
    intro a a' h
    cases a <;> cases a' <;> (try exact h.elim) <;> simp
  have e1 := hb.lt ha
  have e2 := ha.lt hb
  have d1 : fmin a b = if a = nan then b else if b = nan then a else if b <. a then b else a := rfl
  have d2 : fmin a' b' = if a' = nan then b' else if b' = nan then a' else if b' <. a' then b' else a' :=
    rfl
  have d3 : fmax a b = if a = nan then b else if b = nan then a else if a <. b then b else a := rfl
  have d4 : fmax a' b' = if a' = nan then b' else if b' = nan then a' else if a' <. b' then b' else a' :=
    rfl
  rw [d1, d2, d3, d4, e1, e2]
  simp only [na ha, na hb]
  refine ⟨?_, ?_, ?_, ?_⟩ <;> (repeat' split) <;> simp_all

theorem exists_scaled {l l' : List (Ieee f)} (h : List.Forall₂ (ScaledBy k) l l')
    {p p' : Ieee f → Prop} (hp : ∀ a a', ScaledBy k a a' → a' ∈ l' → (p' a' ↔ p a)) :
    (∃ a ∈ l', p' a) ↔ ∃ a ∈ l, p a := by
  induction h with
  | nil => simp
  | cons h0 h ih =>
    simp only [List.mem_cons, exists_eq_or_imp]
    rw [hp _ _ h0 (by simp), ih fun a a' haa hm => hp a a' haa (List.mem_cons_of_mem _ hm)]

end Bounds

section OneDim
variable {k : Nat}

/-- The same pair of nodes, the coordinates in another unit. -/
structure SampleScaled (k : Nat) (c : ℚ) (g g' : GridSample (Ieee f)) : Prop where
  x0 : ScaledBy k g.x0 g'.x0
  x1 : ScaledBy k g.x1 g'.x1
  b0 : |val g'.x0| ≤ c
  b1 : |val g'.x1| ≤ c
  y0 : g'.y0 = g.y0
  y1 : g'.y1 = g.y1
  extrap : g'.extrap = g.extrap

theorem ScaledBy.abs {a a' : Ieee f} (h : ScaledBy k a a') :
    ScaledBy k (FloatOps.abs a) (FloatOps.abs a') := by
  cases a <;> cases a' <;> (try exact h.elim)
  · obtain ⟨rfl, rfl⟩ := h
    refine ⟨rfl, ?_⟩
    rw [abs_mul, abs_of_pos (show (0 : ℚ) < 2 ^ k by positivity)]
  · rfl
  · trivial

/-- The interpolators that return a stored value depend only on comparisons. -/
theorem hold_scaled (fma : Bool) {kind : Kind1D} (hk : kind = .left ∨ kind = .right ∨ kind = .nearest)
    {loc loc' : Ieee f} {c : ℚ} (hl : ScaledBy k loc loc') (hbl : |val loc'| + c ≤ f.omega)
    {r r' : Res (GridSample (Ieee f))} (h : SameOutcome (SampleScaled k c) r r') :
    kind.evalOne fma (fun _ => r') loc' = kind.evalOne fma (fun _ => r) loc := by
  cases h with
  | err m => rcases hk with rfl | rfl | rfl <;> rfl
  | panic => rcases hk with rfl | rfl | rfl <;> rfl
  | ok h =>
    rcases hk with rfl | rfl | rfl <;>
      simp only [Kind1D.evalOne, Left1D.evalOne, Right1D.evalOne, Nearest1D.evalOne, Res.ok_bind,
        h.extrap, h.y0, h.y1]
    have h0 := hl.sub h.x0 ((abs_sub _ _).trans (by linarith [h.b0]))
    have h1 := hl.sub h.x1 ((abs_sub _ _).trans (by linarith [h.b1]))
    rw [h0.abs.le h1.abs]

theorem lget_scaled {l l' : List (Ieee f)} (h : List.Forall₂ (ScaledBy k) l l')
    (hb : ∀ a ∈ l', |val a| ≤ f.omega / 2) (i : Nat) :
    SameOutcome (fun a a' => ScaledBy k a a' ∧ |val a'| ≤ f.omega / 2) (lget l i) (lget l' i) := by
  have hl := h.length_eq
  by_cases hi : i < l.length
  · rw [lget_lt _ hi, lget_lt _ (hl ▸ hi)]
    exact .ok ⟨(List.forall₂_iff_get.1 h).2 i hi (hl ▸ hi), hb _ (List.getElem_mem _)⟩
  · rw [lget_eq_panic.2 (by omega), lget_eq_panic.2 (by omega)]
    exact .panic

theorem SameOutcome.bind' {α β α' β' : Type} {R : α → α' → Prop} {S : β → β' → Prop} {r : Res α}
    {r' : Res α'} (h : SameOutcome R r r') {c : α → Res β} {c' : α' → Res β'}
    (hc : ∀ a a', R a a' → SameOutcome S (c a) (c' a')) : SameOutcome S (r >>= c) (r' >>= c') := by
  cases h with
  | ok h => exact hc _ _ h
  | err m => exact .err m
  | panic => exact .panic

theorem SameOutcome.refl {α : Type} (r : Res α) : SameOutcome (· = ·) r r := by
  cases r with
  | ok a => exact .ok rfl
  | err m => exact .err m
  | panic => exact .panic

theorem SameOutcome.eq {α : Type} {r r' : Res α} (h : SameOutcome (fun a b => b = a) r r') :
    r' = r := by
  cases h with
  | ok h => rw [h]
  | err m => rfl
  | panic => rfl

theorem rectilinear_sample_scaled {grid grid' vals : List (Ieee f)}
    {loc loc' : Ieee f} (hg : List.Forall₂ (ScaledBy k) grid grid') (hl : ScaledBy k loc loc')
    (hb : ∀ a ∈ grid', |val a| ≤ f.omega / 2) :
    SameOutcome (SampleScaled k (f.omega / 2)) (RectilinearGrid1D.at ⟨grid, vals⟩ loc)
      (RectilinearGrid1D.at ⟨grid', vals⟩ loc') := by
  have hi : SameOutcome (· = ·) (RectilinearGrid1D.index ⟨grid, vals⟩ loc)
      (RectilinearGrid1D.index ⟨grid', vals⟩ loc') := by
    unfold RectilinearGrid1D.index
    simp only
    have hp : partitionPoint grid' (fun v => v <. loc') = partitionPoint grid (fun v => v <. loc) :=
      cellsBelow_scaled hg hl
    rw [hp, ← hg.length_eq]
    refine SameOutcome.bind' (SameOutcome.refl _) fun p _ e => ?_
    subst e
    refine SameOutcome.bind' (SameOutcome.refl _) fun q _ e => ?_
    subst e
    refine SameOutcome.bind' (lget_scaled hg hb 0) fun a a' ha => ?_
    refine SameOutcome.bind' (SameOutcome.refl _) fun r _ e => ?_
    subst e
    refine SameOutcome.bind' (lget_scaled hg hb r) fun b b' hb => ?_
    rw [hl.lt ha.1, hb.1.lt hl]
    exact SameOutcome.refl _
  unfold RectilinearGrid1D.at
  refine SameOutcome.bind' hi fun p _ e => ?_
  subst e
  obtain ⟨i, ex⟩ := p
  simp only
  refine SameOutcome.bind' (SameOutcome.refl _) fun q _ e => ?_
  subst e
  refine SameOutcome.bind' (lget_scaled hg hb i) fun a a' ha => ?_
  refine SameOutcome.bind' (lget_scaled hg hb q) fun b b' hb => ?_
  refine SameOutcome.bind' (SameOutcome.refl _) fun y0 _ e => ?_
  subst e
  refine SameOutcome.bind' (SameOutcome.refl _) fun y1 _ e => ?_
  subst e
  exact .ok ⟨ha.1, hb.1, ha.2, hb.2, rfl, rfl, rfl⟩

theorem abs_val_add_le_quarter {a b : Ieee f} : |val (a +. b)| ≤ 5 / 4 * (|val a| + |val b|) := by
  have h0 : |(0 : ℚ)| ≤ 5 / 4 * (|val a| + |val b|) := by rw [abs_zero]; positivity
  have hu : f.unitRoundoff ≤ 1 / 4 := by
    have : (4 : ℚ) ≤ 2 ^ f.p := by
      calc (4 : ℚ) = 2 ^ 2 := by norm_num
        _ ≤ 2 ^ f.p := pow_le_pow_right₀ (by norm_num) f.two_le_p
    unfold Format.unitRoundoff
    exact one_div_le_one_div_of_le (by norm_num) this
  cases a with
  | nan => exact h0
  | inf s =>
    cases b with
    | nan => exact h0
    | fin _ _ _ _ => exact h0
    | inf t =>
      show |val (if s = t then inf s else (nan : Ieee f))| ≤ _
      split <;> exact h0
  | fin s q hr hs =>
    cases b with
    | nan => exact h0
    | inf t => exact h0
    | fin t r gr gs =>
      have h1 := f.roundQ_err_add hr gr
      have h2 := mul_le_mul_of_nonneg_right hu (abs_nonneg (q + r))
      have h3 : |f.roundQ (q + r)| ≤ 5 / 4 * (|q| + |r|) := by
        have h4 := abs_add_le q r
        have h5 := abs_add_le (f.roundQ (q + r) - (q + r)) (q + r)
        rw [sub_add_cancel] at h5
        linarith
      show |val (rnd f _ (q + r))| ≤ _
      unfold rnd
      split
      · exact h3
      · exact h0

theorem regular_sample_scaled {start start' step step' loc loc' : Ieee f} {vals : List (Ieee f)}
    (hv : IsSlice vals)
    (hs : ScaledBy k start start') (hp : ScaledBy k step step') (hl : ScaledBy k loc loc')
    (b1 : |val start'| ≤ f.omega / 8) (b2 : |val step'| * vals.length ≤ f.omega / 8)
    (b3 : |val loc'| ≤ f.omega / 8) :
    SameOutcome (SampleScaled k (f.omega * 7 / 8))
      (RegularGrid1D.new start step vals >>= fun g => g.at loc)
      (RegularGrid1D.new start' step' vals >>= fun g => g.at loc') := by
  have hΩ := f.omega_pos
  by_cases hz : 1 ≤ vals.length
  swap
  · unfold RegularGrid1D.new usub
    rw [if_neg hz]
    exact .panic
  have hn : ∀ n : Nat, n + 1 ≤ vals.length → ScaledBy k (start +. step *. rnd f false (n : ℚ))
      (start' +. step' *. rnd f false (n : ℚ)) ∧
      |val (start' +. step' *. rnd f false (n : ℚ))| ≤ f.omega / 2 := by
    intro n hn
    have hle : ((n : Nat) : ℚ) ≤ vals.length := by exact_mod_cast (show n ≤ vals.length by omega)
    have := hs.node false hp (count_rnd n) b1
      ((mul_le_mul_of_nonneg_left hle (abs_nonneg _)).trans b2)
    simpa using this
  have hstop := hn (vals.length - 1) (by omega)
  rw [RegularGrid1D.new_ok (m := rnd f false ((vals.length - 1 : Nat) : ℚ)) hz rfl,
    RegularGrid1D.new_ok (m := rnd f false ((vals.length - 1 : Nat) : ℚ)) hz rfl, Res.ok_bind,
    Res.ok_bind]
  have hraw : rawCell start' step' loc' = rawCell start step loc := by
    unfold rawCell
    rw [(hl.sub hs ((abs_sub _ _).trans (by linarith))).div hp]
  cases hr : rawCell start step loc with
  | none => rw [RegularGrid1D.at_err hr, RegularGrid1D.at_err (hraw.trans hr)]; exact .err _
  | some z =>
    by_cases h2 : 2 ≤ vals.length
    swap
    · rw [RegularGrid1D.at_panic (by omega) (by simp [hr]),
        RegularGrid1D.at_panic (by omega) (by simp [hraw, hr])]
      exact .panic
    rw [RegularGrid1D.at_ok (f := rnd f false ((clampIdx z (vals.length - 2) : Nat) : ℚ)) h2 hv hr rfl,
      RegularGrid1D.at_ok (f := rnd f false ((clampIdx z (vals.length - 2) : Nat) : ℚ)) h2 hv
        (hraw.trans hr) rfl]
    have hle := clampIdx_le z (vals.length - 2)
    obtain ⟨n1, n2⟩ := hn (clampIdx z (vals.length - 2)) (by omega)
    have hst : |val step'| ≤ f.omega / 8 := by
      have : (1 : ℚ) ≤ vals.length := by exact_mod_cast hz
      have := mul_le_mul_of_nonneg_left this (abs_nonneg (val step'))
      linarith
    refine .ok ⟨n1, n1.add hp ((abs_add_le _ _).trans (by linarith)), by linarith, ?_, rfl, rfl, ?_⟩
    · exact abs_val_add_le_quarter.trans (by linarith)
    · show extrapHL _ _ _ = extrapHL _ _ _
      unfold extrapHL
      rw [hstop.1.lt hl, hl.lt hs]

end OneDim

end Ieee
end Interpn
