import Verif.Spec.ValueScale
import Verif.Lemmas.Dyadic
import Verif.Lemmas.PowerOfTwo
import Verif.Lemmas.DataRel
import Verif.Lemmas.IeeeDropAxis

/-! Scaling of stored values by a power of two commutes with the operations applied to them, as long
as no digit falls below the subnormal range. -/

set_option autoImplicit false

namespace Interpn
open FloatOps

namespace Format
variable {f : Format}

/-- Weight of the last digit of subnormal numbers. -/
def low (f : Format) : Int := f.emin - (f.p - 1 : Int)

theorem multiple_round {m : Int} {q : ℚ} (h : Interpn.Multiple m q) :
    Interpn.Multiple m (f.roundQ q) := by
  obtain ⟨z, hz⟩ := h
  by_cases hq : max (Int.log 2 |q|) f.emin - (f.p - 1 : Int) ≤ m
  · rw [f.roundQ_of_multiple hz (by
      unfold Format.quantum; exact zpow_le_zpow_right₀ (by norm_num) hq)]
    exact ⟨z, hz⟩
  · exact Interpn.Multiple.of_le ⟨roundHalfEven (q / f.quantum q), rfl⟩ (not_le.1 hq).le

/-- A number that is not too small keeps `p` digits. -/
theorem multiple_round_normal {l : Int} {q : ℚ} (h : q = 0 ∨ 2 ^ l ≤ |q|) :
    Interpn.Multiple (l - (f.p - 1 : Int)) (f.roundQ q) := by
  rcases h with rfl | h
  · rw [f.roundQ_zero]; exact ⟨0, by simp⟩
  · have h0 : 0 < |q| := lt_of_lt_of_le (zpow_pos (by norm_num) _) h
    have : l ≤ Int.log 2 |q| := by
      rw [← Int.zpow_le_iff_le_log (by norm_num) h0]; exact_mod_cast h
    refine Interpn.Multiple.of_le ⟨roundHalfEven (q / f.quantum q), rfl⟩ ?_
    have := le_max_left (Int.log 2 |q|) f.emin
    omega

theorem roundQ_scale_big (k : Nat) {l : Int} (hl : f.emin ≤ l) {q : ℚ} (h : q = 0 ∨ 2 ^ l ≤ |q|) :
    f.roundQ (2 ^ k * q) = 2 ^ k * f.roundQ q := by
  rcases h with rfl | h
  · simp [f.roundQ_zero]
  · have h0 : 0 < |q| := lt_of_lt_of_le (zpow_pos (by norm_num) _) h
    have : l ≤ Int.log 2 |q| := by
      rw [← Int.zpow_le_iff_le_log (by norm_num) h0]; exact_mod_cast h
    exact roundQ_scale_normal k (abs_pos.1 h0) (by omega)

end Format

theorem Multiple.neg {e : Int} {a : ℚ} (h : Multiple e a) : Multiple e (-a) := by
  obtain ⟨z, rfl⟩ := h
  exact ⟨-z, by push_cast; ring⟩

theorem Multiple.zero (e : Int) : Multiple e 0 := ⟨0, by simp⟩

/-- A multiple of `2^m` is 0 or at least `2^m` in size. -/
theorem Multiple.size {m : Int} {q : ℚ} (h : Multiple m q) : q = 0 ∨ 2 ^ m ≤ |q| := by
  obtain ⟨z, rfl⟩ := h
  rcases eq_or_ne z 0 with rfl | hz
  · left; simp
  · right
    have hp : (0 : ℚ) < 2 ^ m := zpow_pos (by norm_num) _
    rw [abs_mul, abs_of_pos hp]
    have : (1 : ℚ) ≤ |(z : ℚ)| := by exact_mod_cast Int.one_le_abs hz
    nlinarith

namespace Ieee
variable {f : Format}

/-- If `a'` is finite, it is `2^k` times `a`, which is a multiple of `2^m`. -/
def Up (k : Nat) (m : Int) (a a' : Ieee f) : Prop :=
  a'.Finite → ScaledBy k a a' ∧ Multiple m (val a)

variable {k : Nat} {m m' : Int} {a a' b b' : Ieee f}

theorem Up.of_le (h : Up k m a a') (hm : m' ≤ m) : Up k m' a a' :=
  fun hf => ⟨(h hf).1, (h hf).2.of_le hm⟩

/-- The result of a rounding. -/
theorem up_rnd (s : Bool) {q : ℚ} (hs : f.roundQ (2 ^ k * q) = 2 ^ k * f.roundQ q)
    (hm : Multiple m (f.roundQ q)) : Up k m (rnd f s q) (rnd f s (2 ^ k * q)) := by
  have hp : (1 : ℚ) ≤ 2 ^ k := one_le_pow₀ (by norm_num)
  intro hf
  unfold rnd at hf ⊢
  by_cases e1 : |f.roundQ (2 ^ k * q)| ≤ f.omega
  · have e2 : |f.roundQ q| ≤ f.omega := by
      rw [hs, abs_mul, abs_of_pos (by positivity)] at e1
      nlinarith [abs_nonneg (f.roundQ q)]
    rw [dif_pos e1, dif_pos e2]
    refine ⟨⟨?_, hs⟩, hm⟩
    by_cases h0 : q = 0
    · simp [h0]
    · have hp : (0 : ℚ) < 2 ^ k := by positivity
      have : (2 : ℚ) ^ k * q ≠ 0 := mul_ne_zero hp.ne' h0
      rw [if_neg h0, if_neg this, decide_eq_decide]
      constructor
      · intro h; nlinarith
      · intro h; nlinarith
  · rw [dif_neg e1] at hf; exact hf.elim

theorem up_rnd_multiple (s : Bool) {q : ℚ} (hm : f.low ≤ m) (h : Multiple m q) :
    Up k m (rnd f s q) (rnd f s (2 ^ k * q)) :=
  up_rnd s (Format.roundQ_scale k (h.of_le hm)) (Format.multiple_round h)

/-- The forms of two finite related floats. -/
theorem Up.cases {s : Bool} {q : ℚ} {h1 h2} (h : Up k m a (fin s q h1 h2)) :
    ∃ q' h1' h2', a = fin s q' h1' h2' ∧ q = 2 ^ k * q' ∧ Multiple m q' := by
  have := h trivial
  cases a with
  | fin t q' h1' h2' =>
    obtain ⟨⟨rfl, rfl⟩, hm⟩ := this
    exact ⟨q', h1', h2', rfl, rfl, hm⟩
  | inf t => exact this.1.elim
  | nan => exact this.1.elim

theorem Up.neg (h : Up k m a a') : Up k m (-. a) (-. a') := by
  intro hf
  cases a' with
  | fin s q h1 h2 =>
    obtain ⟨q', h1', h2', rfl, rfl, hm⟩ := h.cases
    exact ⟨ScaledBy.neg (h trivial).1, hm.neg⟩
  | inf t => exact hf.elim
  | nan => exact hf.elim

theorem Up.add (hm : f.low ≤ m) (ha : Up k m a a') (hb : Up k m b b') :
    Up k m (a +. b) (a' +. b') := by
  intro hf
  cases a' with
  | fin s q h1 h2 =>
    cases b' with
    | fin t r h3 h4 =>
      obtain ⟨q', h1', h2', rfl, rfl, hq⟩ := ha.cases
      obtain ⟨r', h3', h4', rfl, rfl, hr⟩ := hb.cases
      have := up_rnd_multiple (k := k) (s && t) hm (hq.add hr)
      rw [mul_add] at this
      exact this hf
    | inf t => exact hf.elim
    | nan => exact hf.elim
  | inf t =>
    cases b' with
    | fin => exact hf.elim
    | inf u =>
      change Ieee.Finite (if t = u then inf t else nan) at hf
      split at hf <;> exact hf.elim
    | nan => exact hf.elim
  | nan => exact hf.elim

theorem Up.sub (hm : f.low ≤ m) (ha : Up k m a a') (hb : Up k m b b') :
    Up k m (a -. b) (a' -. b') := Up.add hm ha hb.neg

/-- The factor is a coordinate. -/
theorem Up.mulL {s : Nat} {c : Ieee f} (hc : Multiple (-s) (val c)) (hm : f.low ≤ m - s)
    (ha : Up k m a a') : Up k (m - s) (c *. a) (c *. a') := by
  intro hf
  cases c with
  | fin u w h5 h6 =>
    cases a' with
    | fin t q h1 h2 =>
      obtain ⟨q', h1', h2', rfl, rfl, hq⟩ := ha.cases
      have hmul : Multiple (m - s) (w * q') := by
        have := Multiple.mul hc hq
        rw [show -(s : Int) + m = m - s by ring] at this
        exact this
      have := up_rnd_multiple (k := k) (xor u t) hm hmul
      rw [mul_left_comm] at this
      exact this hf
    | inf t =>
      change Ieee.Finite (if w = 0 then nan else inf (xor u t)) at hf
      split at hf <;> exact hf.elim
    | nan => exact hf.elim
  | inf u =>
    cases a' with
    | fin t q h1 h2 =>
      change Ieee.Finite (if q = 0 then nan else inf (xor u t)) at hf
      split at hf <;> exact hf.elim
    | inf t => exact hf.elim
    | nan => exact hf.elim
  | nan => exact hf.elim

theorem Up.mulR {s : Nat} {c : Ieee f} (hc : Multiple (-s) (val c)) (hm : f.low ≤ m - s)
    (ha : Up k m a a') : Up k (m - s) (a *. c) (a' *. c) := by
  have e : ∀ x y : Ieee f, x *. y = y *. x := mul_comm'
  rw [e a, e a']
  exact ha.mulL hc hm

theorem add_not_finite {x y : Ieee f} (h : ¬ x.Finite) : ¬ (x +. y).Finite := by
  intro hf
  cases x with
  | fin => exact h trivial
  | inf t =>
    cases y with
    | fin => exact hf.elim
    | inf u =>
      change Ieee.Finite (if t = u then inf t else nan) at hf
      split at hf <;> exact hf.elim
    | nan => exact hf.elim
  | nan => exact hf.elim

theorem Up.fmaL {s : Nat} {c : Ieee f} (hc : Multiple (-s) (val c)) (hm : f.low ≤ m - s)
    (ha : Up k m a a') (hb : Up k (m - s) b b') :
    Up k (m - s) (FloatOps.mulAdd c a b) (FloatOps.mulAdd c a' b') := by
  intro hf
  cases c with
  | fin u w h5 h6 =>
    cases a' with
    | fin t q h1 h2 =>
      cases b' with
      | fin v r h3 h4 =>
        obtain ⟨q', h1', h2', rfl, rfl, hq⟩ := ha.cases
        obtain ⟨r', h3', h4', rfl, rfl, hr⟩ := hb.cases
        have hmul : Multiple (m - s) (w * q' + r') := by
          have := Multiple.mul hc hq
          rw [show -(s : Int) + m = m - s by ring] at this
          exact this.add hr
        have := up_rnd_multiple (k := k) (xor u t && v) hm hmul
        rw [mul_add, mul_left_comm] at this
        exact this hf
      | inf v => exact hf.elim
      | nan => exact hf.elim
    | inf t =>
      refine absurd hf (add_not_finite (x := Ieee.mul (fin u w h5 h6) (inf t)) ?_)
      intro h
      change Ieee.Finite (if w = 0 then nan else inf (xor u t)) at h
      split at h <;> exact h.elim
    | nan => exact hf.elim
  | inf u =>
    refine absurd hf ?_
    refine add_not_finite (x := Ieee.mul (inf u) a') ?_
    intro h
    cases a' with
    | fin t q h1 h2 =>
      change Ieee.Finite (if q = 0 then nan else inf (xor u t)) at h
      split at h <;> exact h.elim
    | inf t => exact h.elim
    | nan => exact h.elim
  | nan => exact hf.elim

theorem mulAdd_comm' (a b c : Ieee f) : FloatOps.mulAdd a b c = FloatOps.mulAdd b a c := by
  have h : ∀ a b c : Ieee f, FloatOps.mulAdd a b c = (match a, b, c with
      | fin s a _ _, fin t b _ _, fin r c _ _ => rnd f (xor s t && r) (a * b + c)
      | fin .., fin .., c => c
      | a, b, c => a *. b +. c) := fun _ _ _ => rfl
  rw [h, h]
  cases a <;> cases b
  · next s a _ _ t b _ _ =>
    cases c
    · simp only
      rw [mul_comm, Bool.xor_comm]
    · rfl
    · rfl
  all_goals exact congrArg (· +. c) (mul_comm' _ _)

theorem Up.fmaR {s : Nat} {c : Ieee f} (hc : Multiple (-s) (val c)) (hm : f.low ≤ m - s)
    (ha : Up k m a a') (hb : Up k (m - s) b b') :
    Up k (m - s) (FloatOps.mulAdd a c b) (FloatOps.mulAdd a' c b') := by
  rw [mulAdd_comm' a, mulAdd_comm' a']
  exact ha.fmaL hc hm hb

/-- Division by a coordinate that is not too large. -/
theorem Up.div {r : Nat} {c : Ieee f} (hc : |val c| ≤ 2 ^ r) (hm : f.emin ≤ m - r)
    (ha : Up k m a a') : Up k (m - r - (f.p - 1 : Int)) (a /. c) (a' /. c) := by
  intro hf
  cases a' with
  | fin t q h1 h2 =>
    obtain ⟨q', h1', h2', rfl, rfl, hq⟩ := ha.cases
    cases c with
    | fin u w h5 h6 =>
      change Ieee.Finite (if w = 0 then (if 2 ^ k * q' = 0 then nan else inf (xor t u))
        else rnd f (xor t u) (2 ^ k * q' / w)) at hf
      by_cases hw : w = 0
      · rw [if_pos hw] at hf
        split at hf <;> exact hf.elim
      · have hb : q' / w = 0 ∨ 2 ^ (m - r) ≤ |q' / w| := by
          rcases hq.size with h | h
          · left; rw [h, zero_div]
          · right
            rw [abs_div, le_div_iff₀ (abs_pos.2 hw), zpow_sub₀ (by norm_num), zpow_natCast]
            refine le_trans ?_ h
            rw [div_mul_eq_mul_div, div_le_iff₀ (by positivity)]
            exact mul_le_mul_of_nonneg_left hc (zpow_pos (by norm_num) _).le
        have := up_rnd (k := k) (xor t u) (Format.roundQ_scale_big k hm hb)
          (Format.multiple_round_normal hb)
        rw [if_neg hw, mul_div_assoc] at hf
        have hfin := this hf
        change ScaledBy k (if w = 0 then (if q' = 0 then nan else inf (xor t u))
          else rnd f (xor t u) (q' / w)) (if w = 0 then (if 2 ^ k * q' = 0 then nan
          else inf (xor t u)) else rnd f (xor t u) (2 ^ k * q' / w)) ∧ Multiple _ (val (if w = 0
          then (if q' = 0 then nan else inf (xor t u)) else rnd f (xor t u) (q' / w)))
        rw [if_neg hw, if_neg hw, mul_div_assoc]
        exact hfin
    | inf u =>
      exact ⟨⟨rfl, by simp⟩, Multiple.zero _⟩
    | nan => exact hf.elim
  | inf t =>
    cases c <;> exact hf.elim
  | nan => exact hf.elim

theorem val_one : val (one : Ieee f) = 1 := (exactIfFloat f).one.2

theorem val_two : val ((one : Ieee f) +. one) = 2 := by
  obtain ⟨a, ha, hv⟩ := two_float (f := f)
  have h := exactIfFloat f
  have := h.add one one a h.one.1 h.one.1 ha (by rw [h.one.2, hv]; norm_num)
  rw [this.2, hv]

theorem Up.double (hm : f.low ≤ m) (ha : Up k m a a') :
    Up k m ((one +. one) *. a) ((one +. one) *. a') := by
  have := ha.mulL (s := 0) (c := one +. one) (by rw [val_two]; exact ⟨2, by simp⟩) (by simpa using hm)
  simpa using this

theorem Up.doubleAdd (hm : f.low ≤ m) (ha : Up k m a a') (hb : Up k m b b') :
    Up k m (FloatOps.mulAdd (one +. one) a b) (FloatOps.mulAdd (one +. one) a' b') := by
  have := ha.fmaL (s := 0) (c := one +. one) (by rw [val_two]; exact ⟨2, by simp⟩)
    (by simpa using hm) (by simpa using hb)
  simpa using this

theorem div_eq_rnd {s t : Bool} {x y : ℚ} {h1 h2 h3 h4} (hy : y ≠ 0) :
    (fin s x h1 h2 : Ieee f) /. fin t y h3 h4 = rnd f (xor s t) (x / y) := if_neg hy

theorem Up.half (hm : f.low ≤ m - 1) (ha : Up k m a a') :
    Up k (m - 1) (a /. (one +. one)) (a' /. (one +. one)) := by
  have h2 := val_two (f := f)
  have hfin := two_exact (f := f)
  generalize (one : Ieee f) +. one = two at *
  cases two with
  | fin u w h5 h6 =>
    have hw : w = 2 := h2
    subst hw
    intro hf
    cases a' with
    | fin t q h1 h2 =>
      obtain ⟨q', h1', h2', rfl, rfl, hq⟩ := ha.cases
      have hd : Multiple (m - 1) (q' / 2) := by
        have := hq.div_pow (e' := 1)
        rwa [zpow_one] at this
      have := up_rnd_multiple (k := k) (xor t u) hm hd
      rw [div_eq_rnd (by norm_num)] at hf ⊢
      rw [div_eq_rnd (by norm_num)]
      rw [mul_div_assoc] at hf ⊢
      exact this hf
    | inf t => exact hf.elim
    | nan => exact hf.elim
  | inf t => exact hfin.1.elim
  | nan => exact hfin.1.elim

theorem multiple_rnd (s : Bool) {q : ℚ} (h : Multiple m (f.roundQ q)) :
    Multiple m (val (rnd f s q)) := by
  unfold rnd
  split
  · exact h
  · exact Multiple.zero _

theorem multiple_neg {t : Ieee f} (h : Multiple m (val t)) : Multiple m (val (-. t)) := by
  cases t with
  | fin s q h1 h2 => exact Multiple.neg h
  | inf s => exact Multiple.zero _
  | nan => exact Multiple.zero _

theorem multiple_sub_one {s : Nat} {t : Ieee f} (h : Multiple (-s) (val t)) :
    Multiple (-s) (val (t -. one)) := by
  have h1 : Multiple (-s) (val (-. (one : Ieee f))) := multiple_neg (by
    rw [val_one]; exact Multiple.of_le ⟨1, by simp⟩ (show -(s : Int) ≤ 0 by omega))
  change Multiple (-s) (val (t +. (-. one)))
  generalize -. (one : Ieee f) = u at *
  cases t with
  | fin s q _ _ =>
    cases u with
    | fin => exact multiple_rnd _ (Format.multiple_round (Multiple.add h h1))
    | inf => exact Multiple.zero _
    | nan => exact Multiple.zero _
  | inf t =>
    cases u with
    | fin => exact Multiple.zero _
    | inf u =>
      change Multiple _ (val (if t = u then inf t else nan))
      split <;> exact Multiple.zero _
    | nan => exact Multiple.zero _
  | nan => exact Multiple.zero _

section
variable {s : Nat} {t : Ieee f} (ht : Multiple (-s) (val t))
include ht

theorem Up.lerp (fma : Bool) (hm : f.low ≤ m - s) {v v' : Fin 2 → Ieee f}
    (hv : ∀ p, Up k m (v p) (v' p)) : Up k (m - s) (lerp fma t v) (Interpn.lerp fma t v') := by
  have hm' : f.low ≤ m := by omega
  unfold Interpn.lerp
  have hd := Up.sub hm' (hv 1) (hv 0)
  have h0 := (hv 0).of_le (m' := m - s) (by omega)
  cases fma
  · exact Up.add hm h0 (hd.mulL ht hm)
  · exact hd.fmaL ht hm h0

variable {y0 dy k0 k1 y0' dy' k0' k1' : Ieee f}

theorem Up.hermite (fma : Bool) (hm : f.low ≤ m - 3 * s) (hy : Up k m y0 y0') (hd : Up k m dy dy')
    (h0 : Up k m k0 k0') (h1 : Up k m k1 k1') :
    Up k (m - 3 * s) (hermite fma t y0 dy k0 k1) (Interpn.hermite fma t y0' dy' k0' k1') := by
  have hm0 : f.low ≤ m := by omega
  have hm1 : f.low ≤ m - s := by omega
  have hm2 : f.low ≤ m - s - s := by omega
  have hm3 : f.low ≤ m - s - s - s := by omega
  rw [show m - 3 * (s : Int) = m - s - s - s by ring]
  unfold Interpn.hermite
  have ha := Up.sub hm0 h0 hd
  have hb := Up.add hm0 h1.neg hd
  have hc1 := (Up.add hm0 hd ha).of_le (m' := m - s - s) (by omega)
  have hc2 := (Up.sub hm0 hb (Up.add hm0 ha ha)).of_le (m' := m - s) (by omega)
  have hc3 := Up.sub hm0 ha hb
  have hy := hy.of_le (m' := m - s - s - s) (by omega)
  cases fma
  · exact Up.add hm3 hy (Up.mulL ht hm3 (Up.add hm2 hc1 (Up.mulL ht hm2 (Up.add hm1 hc2
      (Up.mulL ht hm1 hc3)))))
  · exact Up.fmaR ht hm3 (Up.fmaR ht hm2 (Up.fmaR ht hm1 hc3 hc2) hc1) hy

theorem Up.linExtrap (fma : Bool) (hm : f.low ≤ m - s) {y1 y1' : Ieee f} (hy : Up k m y1 y1')
    (h1 : Up k m k1 k1') :
    Up k (m - s) (linExtrap fma y1 k1 t) (Interpn.linExtrap fma y1' k1' t) := by
  unfold Interpn.linExtrap
  have hy := hy.of_le (m' := m - s) (by omega)
  have ht := multiple_sub_one ht
  cases fma
  · exact Up.add hm hy (h1.mulR ht hm)
  · exact h1.fmaR ht hm hy

omit ht in
theorem Up.naturalK1 (fma : Bool) (hm : f.low ≤ m) (hd : Up k m dy dy') (h0 : Up k m k0 k0') :
    Up k m (naturalK1 fma (one +. one) dy k0) (Interpn.naturalK1 fma (one +. one) dy' k0') := by
  unfold Interpn.naturalK1
  cases fma
  · exact Up.sub hm (hd.double hm) h0
  · exact hd.doubleAdd hm h0.neg

theorem Up.cubicInnerRegular (fma fl : Bool) (sat : Saturation) (lin : Bool)
    (hm : f.low ≤ m - (3 * s + 1)) {v v' : Fin 4 → Ieee f} (hv : ∀ p, Up k m (v p) (v' p)) :
    Up k (m - (3 * s + 1)) (cubicInnerRegular fma fl v t sat lin)
      (Interpn.cubicInnerRegular fma fl v' t sat lin) := by
  rw [show m - (3 * (s : Int) + 1) = m - 1 - 3 * s by ring] at hm ⊢
  have hm0 : f.low ≤ m := by omega
  have hm1 : f.low ≤ m - 1 := by omega
  have hw : ∀ p, Up k (m - 1) (v p) (v' p) := fun p => (hv p).of_le (by omega)
  have hd := fun a b => Up.sub hm0 (hv a) (hv b)
  have hd' := fun a b => (hd a b).of_le (m' := m - 1) (by omega)
  have hq := fun a b => (hd a b).half hm1
  have hqn := fun a b => (hd a b).neg.half hm1
  have htn := multiple_neg ht
  have ht1 := multiple_sub_one ht
  unfold Interpn.cubicInnerRegular
  cases sat
  · exact Up.hermite ht _ hm (hw 1) (hd' 2 1) (hq 2 0) (hq 3 1)
  · exact Up.hermite htn _ hm (hw 1) (hd' 0 1) (hqn 2 0) (Up.naturalK1 _ hm1 (hd' 0 1) (hqn 2 0))
  · have h1 := Up.naturalK1 fl hm1 (hd' 0 1) (hqn 2 0)
    cases lin
    · exact Up.hermite htn _ hm (hw 1) (hd' 0 1) (hqn 2 0) h1
    · exact (Up.linExtrap htn fma (by omega) (hw 0) h1).of_le (by omega)
  · exact Up.hermite ht1 _ hm (hw 2) (hd' 3 2) (hq 3 1) (Up.naturalK1 _ hm1 (hd' 3 2) (hq 3 1))
  · have h1 := Up.naturalK1 fma hm1 (hd' 3 2) (hq 3 1)
    cases lin
    · exact Up.hermite ht1 _ hm (hw 2) (hd' 3 2) (hq 3 1) h1
    · exact (Up.linExtrap ht1 fma (by omega) (hw 3) h1).of_le (by omega)

end

/-- The weights of the difference quotients are not too small to keep `p` digits. -/
theorem weight_multiple {R : Nat} {a b : Ieee f} (ha : a.Finite) (hb : b.Finite) (h0 : 0 < val a)
    (h1 : 0 ≤ val b) (hr : val b ≤ 2 ^ R * val a) :
    Multiple (-((R + f.p + 1 : Nat) : Int)) (val (a /. (a +. b))) := by
  cases a with
  | fin s x hx1 hx2 =>
    cases b with
    | fin t y hy1 hy2 =>
      change 0 < x at h0
      change 0 ≤ y at h1
      change y ≤ 2 ^ R * x at hr
      have hs : (fin s x hx1 hx2 : Ieee f) +. fin t y hy1 hy2 = rnd f (s && t) (x + y) := rfl
      rw [hs]
      unfold rnd
      split
      · have he := f.roundQ_err_add hx1 hy1
        have hu : f.unitRoundoff ≤ 1 / 4 := by
          unfold Format.unitRoundoff
          have : (2 : ℚ) ^ 2 ≤ 2 ^ f.p := pow_le_pow_right₀ (by norm_num) f.two_le_p
          rw [div_le_div_iff₀ (by positivity) (by norm_num)]
          linarith
        have hxy : 0 < x + y := by linarith
        rw [abs_of_pos hxy, abs_le] at he
        have h1R : (1 : ℚ) ≤ 2 ^ R := one_le_pow₀ (by norm_num)
        have hle : f.roundQ (x + y) ≤ 4 * 2 ^ R * x := by nlinarith [he.2]
        have hpos : 0 < f.roundQ (x + y) := by nlinarith [he.1]
        rw [div_eq_rnd hpos.ne']
        have := Format.multiple_round_normal (f := f) (l := -((R + 2 : Nat) : Int))
          (q := x / f.roundQ (x + y)) (.inr (by
            rw [abs_of_pos (div_pos h0 hpos), le_div_iff₀ hpos, zpow_neg, zpow_natCast, pow_add,
              inv_mul_le_iff₀ (by positivity)]
            linarith))
        refine multiple_rnd _ ?_
        refine this.of_le ?_
        push_cast
        omega
      · exact Multiple.zero _
    | inf => exact hb.elim
    | nan => exact hb.elim
  | inf => exact ha.elim
  | nan => exact ha.elim

theorem Up.centeredDiff (fma : Bool) {R w : Nat} {h01 h12 : Ieee f} (b01 : |val h01| ≤ 2 ^ R)
    (b12 : |val h12| ≤ 2 ^ R) (hw : w = R + f.p + 1)
    (w01 : Multiple (-(w : Int)) (val (h01 /. (h01 +. h12))))
    (w12 : Multiple (-(w : Int)) (val (h12 /. (h12 +. h01)))) {y0 y1 y2 y0' y1' y2' : Ieee f}
    (hm : f.low ≤ m - 2 * (R + f.p : Int)) (e0 : Up k m y0 y0') (e1 : Up k m y1 y1')
    (e2 : Up k m y2 y2') :
    Up k (m - 2 * (R + f.p : Int)) (centeredDiff fma y0 y1 y2 h01 h12)
      (Interpn.centeredDiff fma y0' y1' y2' h01 h12) := by
  have hp := f.two_le_p
  have hl : f.low = f.emin - (f.p - 1 : Int) := rfl
  have hm0 : f.low ≤ m := by omega
  have hmr : f.emin ≤ m - R := by omega
  have hb := (Up.sub hm0 e2 e1).div b12 hmr
  have hd := (Up.sub hm0 e1 e0).div b01 hmr
  have hmw : m - 2 * (R + f.p : Int) = m - R - (f.p - 1 : Int) - w := by rw [hw]; push_cast; ring
  rw [hmw] at hm ⊢
  have hcd := hd.mulL w12 hm
  unfold Interpn.centeredDiff
  cases fma
  · exact Up.add hm (hb.mulL w01 hm) hcd
  · exact hb.fmaL w01 hm hcd

/-- A usable ratio of two cell widths. -/
def RatioOk (R : Nat) (r : Ieee f) : Prop := r.Finite ∧ 1 / 2 ^ R ≤ val r ∧ val r ≤ 2 ^ R

section
variable {R : Nat} {r : Ieee f} (h : RatioOk R r) {y0 y1 y2 y0' y1' y2' : Ieee f}
  (hm : f.low ≤ m - 2 * (R + f.p : Int)) (e0 : Up k m y0 y0') (e1 : Up k m y1 y1')
  (e2 : Up k m y2 y2')
include h hm e0 e1 e2

omit hm e0 e1 e2 in
theorem RatioOk.weights :
    Multiple (-((R + f.p + 1 : Nat) : Int)) (val (r /. (r +. one))) ∧
    Multiple (-((R + f.p + 1 : Nat) : Int)) (val (one /. (one +. r))) ∧
    |val r| ≤ 2 ^ R ∧ |val (one : Ieee f)| ≤ 2 ^ R := by
  obtain ⟨hf, h1, h2⟩ := h
  have h1R : (1 : ℚ) ≤ 2 ^ R := one_le_pow₀ (by norm_num)
  have hp : 0 < val r := lt_of_lt_of_le (by positivity) h1
  have h1f : (one : Ieee f).Finite := (exactIfFloat f).one.1
  rw [div_le_iff₀ (by positivity)] at h1
  refine ⟨weight_multiple hf h1f hp ?_ ?_, weight_multiple h1f hf ?_ hp.le ?_, ?_, ?_⟩
  · rw [val_one]; norm_num
  · rw [val_one]; linarith
  · rw [val_one]; norm_num
  · rw [val_one]; linarith
  · rw [abs_of_pos hp]; exact h2
  · rw [val_one, abs_one]; exact h1R

theorem Up.centeredL (fma : Bool) :
    Up k (m - 2 * (R + f.p : Int)) (Interpn.centeredDiff fma y0 y1 y2 r one)
      (Interpn.centeredDiff fma y0' y1' y2' r one) := by
  obtain ⟨w1, w2, b1, b2⟩ := h.weights
  exact Up.centeredDiff fma b1 b2 rfl w1 w2 hm e0 e1 e2

theorem Up.centeredR (fma : Bool) :
    Up k (m - 2 * (R + f.p : Int)) (Interpn.centeredDiff fma y0 y1 y2 one r)
      (Interpn.centeredDiff fma y0' y1' y2' one r) := by
  obtain ⟨w1, w2, b1, b2⟩ := h.weights
  exact Up.centeredDiff fma b2 b1 rfl w2 w1 hm e0 e1 e2

end

theorem Up.cubicInnerRectilinear {s R : Nat} (fma fk fl : Bool) {g : Fin 4 → Ieee f} {x : Ieee f}
    (sat : Saturation) (lin : Bool) {v v' : Fin 4 → Ieee f} (hv : ∀ p, Up k m (v p) (v' p))
    (hm : f.low ≤ m - (3 * s + 2 * (R + f.p) : Int))
    (ht : ∀ a b : Fin 4, b.val = a.val + 1 → Multiple (-s) (val ((x -. g a) /. (g b -. g a))) ∧
      Multiple (-s) (val ((-. (x -. g b)) /. (g b -. g a))))
    (hr : ∀ a b c : Fin 4, b.val = a.val + 1 → c.val = b.val + 1 →
      RatioOk R ((g b -. g a) /. (g c -. g b)) ∧ RatioOk R ((g c -. g b) /. (g b -. g a))) :
    Up k (m - (3 * s + 2 * (R + f.p) : Int)) (cubicInnerRectilinear fma fk fl v g x sat lin)
      (Interpn.cubicInnerRectilinear fma fk fl v' g x sat lin) := by
  have hp := f.two_le_p
  rw [show m - (3 * s + 2 * (R + f.p) : Int) = m - 2 * (R + f.p : Int) - 3 * s by ring] at hm ⊢
  have hm0 : f.low ≤ m := by omega
  have hm1 : f.low ≤ m - 2 * (R + f.p : Int) := by omega
  have hw : ∀ p, Up k (m - 2 * (R + f.p : Int)) (v p) (v' p) := fun p => (hv p).of_le (by omega)
  have hd := fun a b => (Up.sub hm0 (hv a) (hv b)).of_le (m' := m - 2 * (R + f.p : Int)) (by omega)
  have c012 := hr 0 1 2 rfl rfl
  have c123 := hr 1 2 3 rfl rfl
  unfold Interpn.cubicInnerRectilinear
  cases sat
  · exact Up.hermite (ht 1 2 rfl).1 _ hm (hw 1) (hd 2 1)
      (Up.centeredL c012.1 hm1 (hv 0) (hv 1) (hv 2) _) (Up.centeredR c123.2 hm1 (hv 1) (hv 2) (hv 3) _)
  · have h0 := (Up.centeredR c012.2 hm1 (hv 0) (hv 1) (hv 2) fma).neg
    exact Up.hermite (ht 0 1 rfl).2 _ hm (hw 1) (hd 0 1) h0 (Up.naturalK1 _ hm1 (hd 0 1) h0)
  · have h0 := (Up.centeredR c012.2 hm1 (hv 0) (hv 1) (hv 2) fma).neg
    have h1 := Up.naturalK1 false hm1 (hd 0 1) h0
    cases lin
    · exact Up.hermite (ht 0 1 rfl).2 _ hm (hw 1) (hd 0 1) h0 h1
    · exact (Up.linExtrap (ht 0 1 rfl).2 fl (by omega) (hw 0) h1).of_le (by omega)
  · have h0 := Up.centeredL c123.1 hm1 (hv 1) (hv 2) (hv 3) fma
    exact Up.hermite (ht 2 3 rfl).1 _ hm (hw 2) (hd 3 2) h0 (Up.naturalK1 _ hm1 (hd 3 2) h0)
  · have h0 := Up.centeredL c123.1 hm1 (hv 1) (hv 2) (hv 3) fma
    have h1 := Up.naturalK1 false hm1 (hd 3 2) h0
    cases lin
    · exact Up.hermite (ht 2 3 rfl).1 _ hm (hw 2) (hd 3 2) h0 h1
    · exact (Up.linExtrap (ht 2 3 rfl).1 fl (by omega) (hw 3) h1).of_le (by omega)

/-- All axes; each one costs at most `L` binary places. -/
theorem up_axisByAxis {L : Nat} : ∀ {N : Nat} (_ : f.low ≤ m - N * L)
    (S : Fin N → Nat → Prop) (op : Fin N → (Nat → Ieee f) → Ieee f)
    (g g' : (Fin N → Nat) → Ieee f)
    (_ : ∀ j (m' : Int) v v', f.low ≤ m' - L → (∀ i, S j i → Up k m' (v i) (v' i)) →
      Up k (m' - L) (op j v) (op j v'))
    (_ : ∀ loc : Fin N → Nat, (∀ j, S j (loc j)) → Up k m (g loc) (g' loc)),
    Up k (m - N * L) (axisByAxis op g) (axisByAxis op g')
  | 0, _, S, op, g, g', _, hg => by
    have := hg (fun k => k.elim0) (fun k => k.elim0)
    rw [axisByAxis, axisByAxis]
    simpa using this
  | N + 1, h, S, op, g, g', hop, hg => by
    have hs : m - ((N + 1 : Nat) : Int) * L = m - N * L - L := by push_cast; ring
    rw [hs] at h ⊢
    rw [axisByAxis, axisByAxis]
    exact hop (Fin.last N) _ _ _ h fun i hi =>
      up_axisByAxis (by omega) (fun j => S j.castSucc) (fun j => op j.castSucc)
        (fun loc => g (Fin.snoc (α := fun _ => Nat) loc i))
        (fun loc => g' (Fin.snoc (α := fun _ => Nat) loc i)) (fun j => hop j.castSucc)
        (fun loc hl => hg _ fun j => by
          refine Fin.lastCases ?_ (fun j => ?_) j
          · rw [Fin.snoc_last]; exact hi
          · rw [Fin.snoc_castSucc]; exact hl j)

theorem up_valAt {N : Nat} {vals vals' : List (Ieee f)} (hv : List.Forall₂ (ScaledBy k) vals vals')
    (hm : ∀ v ∈ vals, Multiple m (val v)) {dims : Fin N → Nat} (hl : vals.length = ∏ j, dims j)
    (loc : Fin N → Nat) (hb : ∀ j, loc j < dims j) :
    Up k m (valAt zero dims vals loc) (valAt zero dims vals' loc) := by
  intro _
  have h1 := samples_valAt zero dims vals hl loc hb
  exact ⟨valAt_rel hv hl loc hb, hm _ (List.mem_of_getElem? h1)⟩

end Ieee

end Interpn
