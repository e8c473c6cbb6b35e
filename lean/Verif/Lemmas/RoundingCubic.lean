import Verif.Lemmas.RoundingRegular

/-! Rounding errors of the cubic rules. Errors are tracked as numeric multiples of `u * W`, where `W`
is the scale of the quantity. -/

set_option autoImplicit false
set_option linter.unusedSectionVars false

namespace Interpn
open FloatOps

section
variable {T K : Type} [FloatOps T] [Field K] [LinearOrder K] [IsStrictOrderedRing K]

/-- `a` is a finite float approximating `x` up to `k * (u * W)`, and `|x| ≤ A * W`. -/
structure Apx (val : T → K) (fin : T → Prop) (u W : K) (a : T) (x k A : K) : Prop where
  fin : fin a
  err : |val a - x| ≤ k * (u * W)
  size : |x| ≤ A * W
  k_nonneg : 0 ≤ k
  A_nonneg : 0 ≤ A

/-- A scale at which underflow is negligible and overflow far away. -/
structure Scale (u η Ω W : K) : Prop where
  nonneg : 0 ≤ W
  under : η ≤ u * W
  over : 64 * W ≤ Ω

/-- `a` is a finite float approximating the positive number `x` with relative error `k * u`. -/
structure Pos (val : T → K) (fin : T → Prop) (u : K) (a : T) (x k : K) : Prop where
  fin : fin a
  pos : 0 < x
  k_nonneg : 0 ≤ k
  err : |val a - x| ≤ k * u * x

variable {val : T → K} {fin : T → Prop} {u η Ω W W1 W2 : K} {a b c : T}
  {x y z k k1 k2 k3 A A1 A2 A3 : K}

theorem Apx.abs_le (h : Apx val fin u W a x k A) (hu : u ≤ 1 / 1000) (hW : 0 ≤ W) :
    |val a| ≤ (A + k / 1000) * W := by
  have h1 := abs_add_le (val a - x) x
  rw [sub_add_cancel] at h1
  have h2 : k * (u * W) ≤ k * (1 / 1000 * W) := by
    have := h.k_nonneg
    gcongr
  have h3 := h.err
  have h4 := h.size
  nlinarith

theorem Apx.mono (h : Apx val fin u W a x k1 A1) (hu : 0 ≤ u) (hW : 0 ≤ W) (hW2 : W ≤ W2)
    (hk : k1 ≤ k) (hA : A1 ≤ A) : Apx val fin u W2 a x k A where
  fin := h.fin
  err := h.err.trans (by have := h.k_nonneg.trans hk; gcongr)
  size := h.size.trans (by have := h.A_nonneg.trans hA; gcongr)
  k_nonneg := h.k_nonneg.trans hk
  A_nonneg := h.A_nonneg.trans hA

theorem Apx.congr (h : Apx val fin u W a x k A) (e : x = y) : Apx val fin u W a y k A := e ▸ h

theorem Apx.exact (ha : fin a) (hs : |val a| ≤ W) : Apx val fin u W a (val a) 0 1 where
  fin := ha
  err := by simp
  size := by simpa using hs
  k_nonneg := le_rfl
  A_nonneg := zero_le_one

theorem Apx.neg (hn : ExactSign val fin) (h : Apx val fin u W a x k A) :
    Apx val fin u W (-. a) (-x) k A where
  fin := (hn.neg a h.fin).1
  err := by rw [(hn.neg a h.fin).2, neg_sub_neg, abs_sub_comm]; exact h.err
  size := by rw [abs_neg]; exact h.size
  k_nonneg := h.k_nonneg
  A_nonneg := h.A_nonneg

section
variable (R : Rounds val fin u η Ω) (hu : u ≤ 1 / 1000)
include R hu

theorem Apx.add (s : Scale u η Ω W) (h1 : Apx val fin u W a x k1 A1)
    (h2 : Apx val fin u W b y k2 A2) (hk : k1 + k2 + (A1 + A2) + (k1 + k2) / 1000 ≤ k)
    (hA : A1 + A2 ≤ A) (hO : A1 + A2 + (k1 + k2) / 1000 ≤ 64) :
    Apx val fin u W (a +. b) (x + y) k A := by
  have hW := s.nonneg
  have hu0 := R.u_nonneg
  have hk1 := h1.k_nonneg
  have hk2 := h2.k_nonneg
  have hA1 := h1.A_nonneg
  have hA2 := h2.A_nonneg
  have hs : |val a + val b| ≤ (A1 + A2 + (k1 + k2) / 1000) * W := by
    have := abs_add_le (val a) (val b)
    have := h1.abs_le hu hW
    have := h2.abs_le hu hW
    nlinarith
  have hr := R.add a b h1.fin h2.fin
    (hs.trans ((mul_le_mul_of_nonneg_right hO hW).trans s.over))
  refine ⟨hr.1, ?_, ?_, by linarith, by linarith⟩
  · have e : val (a +. b) - (x + y) =
        (val (a +. b) - (val a + val b)) + ((val a - x) + (val b - y)) := by ring
    have h3 : u * |val a + val b| ≤ u * ((A1 + A2 + (k1 + k2) / 1000) * W) := by gcongr
    have h4 := abs_add_le (val a - x) (val b - y)
    have h5 := abs_add_le (val (a +. b) - (val a + val b)) ((val a - x) + (val b - y))
    have h6 := mul_le_mul_of_nonneg_right hk (mul_nonneg hu0 hW)
    rw [e]
    have h7 := h1.err
    have h8 := h2.err
    nlinarith [hr.2]
  · have h3 := abs_add_le x y
    have h4 := h1.size
    have h5 := h2.size
    have h6 := mul_le_mul_of_nonneg_right hA hW
    nlinarith

theorem Apx.sub (s : Scale u η Ω W) (h1 : Apx val fin u W a x k1 A1)
    (h2 : Apx val fin u W b y k2 A2) (hk : k1 + k2 + (A1 + A2) + (k1 + k2) / 1000 ≤ k)
    (hA : A1 + A2 ≤ A) (hO : A1 + A2 + (k1 + k2) / 1000 ≤ 64) :
    Apx val fin u W (a -. b) (x - y) k A := by
  have hW := s.nonneg
  have hu0 := R.u_nonneg
  have hk1 := h1.k_nonneg
  have hk2 := h2.k_nonneg
  have hA1 := h1.A_nonneg
  have hA2 := h2.A_nonneg
  have hs : |val a - val b| ≤ (A1 + A2 + (k1 + k2) / 1000) * W := by
    have := abs_sub (val a) (val b)
    have := h1.abs_le hu hW
    have := h2.abs_le hu hW
    nlinarith
  have hr := R.sub a b h1.fin h2.fin
    (hs.trans ((mul_le_mul_of_nonneg_right hO hW).trans s.over))
  refine ⟨hr.1, ?_, ?_, by linarith, by linarith⟩
  · have e : val (a -. b) - (x - y) =
        (val (a -. b) - (val a - val b)) + ((val a - x) - (val b - y)) := by ring
    have h3 : u * |val a - val b| ≤ u * ((A1 + A2 + (k1 + k2) / 1000) * W) := by gcongr
    have h4 := abs_sub (val a - x) (val b - y)
    have h5 := abs_add_le (val (a -. b) - (val a - val b)) ((val a - x) - (val b - y))
    have h6 := mul_le_mul_of_nonneg_right hk (mul_nonneg hu0 hW)
    rw [e]
    have h7 := h1.err
    have h8 := h2.err
    nlinarith [hr.2]
  · have h3 := abs_sub x y
    have h4 := h1.size
    have h5 := h2.size
    have h6 := mul_le_mul_of_nonneg_right hA hW
    nlinarith

/-- The product of two approximations, before rounding. -/
theorem Apx.prod (hW1 : 0 ≤ W1) (hW2 : 0 ≤ W2) (h1 : Apx val fin u W1 a x k1 A1)
    (h2 : Apx val fin u W2 b y k2 A2) :
    |val a * val b - x * y| ≤ (k1 * (A2 + k2 / 1000) + A1 * k2) * (u * (W1 * W2)) ∧
      |val a * val b| ≤ (A1 + k1 / 1000) * (A2 + k2 / 1000) * (W1 * W2) ∧
      |x * y| ≤ A1 * A2 * (W1 * W2) := by
  have hu0 := R.u_nonneg
  have hk1 := h1.k_nonneg
  have hk2 := h2.k_nonneg
  have hA1 := h1.A_nonneg
  have hA2 := h2.A_nonneg
  have b1 := h1.abs_le hu hW1
  have b2 := h2.abs_le hu hW2
  have p1 : |val a - x| * |val b| ≤ k1 * (u * W1) * ((A2 + k2 / 1000) * W2) :=
    mul_le_mul h1.err b2 (abs_nonneg _) (by positivity)
  have p2 : |x| * |val b - y| ≤ A1 * W1 * (k2 * (u * W2)) :=
    mul_le_mul h1.size h2.err (abs_nonneg _) (by positivity)
  refine ⟨?_, ?_, ?_⟩
  · have e : val a * val b - x * y = (val a - x) * val b + x * (val b - y) := by ring
    rw [e]
    refine (abs_add_le _ _).trans ?_
    rw [abs_mul, abs_mul]
    refine (add_le_add p1 p2).trans (le_of_eq ?_)
    ring
  · rw [abs_mul]
    refine (mul_le_mul b1 b2 (abs_nonneg _) (by positivity)).trans (le_of_eq ?_)
    ring
  · rw [abs_mul]
    refine (mul_le_mul h1.size h2.size (abs_nonneg _) (by positivity)).trans (le_of_eq ?_)
    ring

theorem Apx.mul (s : Scale u η Ω W) (hW1 : 0 ≤ W1) (hW2 : 0 ≤ W2) (hW : W = W1 * W2)
    (h1 : Apx val fin u W1 a x k1 A1) (h2 : Apx val fin u W2 b y k2 A2)
    (hk : k1 * (A2 + k2 / 1000) + A1 * k2 + (A1 + k1 / 1000) * (A2 + k2 / 1000) + 1 ≤ k)
    (hA : A1 * A2 ≤ A) (hO : (A1 + k1 / 1000) * (A2 + k2 / 1000) ≤ 64) :
    Apx val fin u W (a *. b) (x * y) k A := by
  have hW0 := s.nonneg
  have hu0 := R.u_nonneg
  have hk1 := h1.k_nonneg
  have hk2 := h2.k_nonneg
  have hA1 := h1.A_nonneg
  have hA2 := h2.A_nonneg
  obtain ⟨p1, p2, p3⟩ := Apx.prod R hu hW1 hW2 h1 h2
  rw [← hW] at p1 p2 p3
  have hr := R.mul a b h1.fin h2.fin
    (p2.trans ((mul_le_mul_of_nonneg_right hO hW0).trans s.over))
  have q1 : 0 ≤ k1 * (A2 + k2 / 1000) + A1 * k2 := by positivity
  have q2 : 0 ≤ (A1 + k1 / 1000) * (A2 + k2 / 1000) := by positivity
  refine ⟨hr.1, ?_, ?_, by linarith, le_trans (by positivity) hA⟩
  · have h3 : u * |val a * val b| ≤ u * ((A1 + k1 / 1000) * (A2 + k2 / 1000) * W) := by gcongr
    have h5 := abs_add_le (val (a *. b) - val a * val b) (val a * val b - x * y)
    rw [sub_add_sub_cancel] at h5
    have h6 := mul_le_mul_of_nonneg_right hk (mul_nonneg hu0 hW0)
    have := s.under
    nlinarith [hr.2]
  · exact p3.trans (mul_le_mul_of_nonneg_right hA hW0)

theorem Apx.mulAdd (s : Scale u η Ω W) (hW1 : 0 ≤ W1) (hW2 : 0 ≤ W2) (hW : W = W1 * W2)
    (h1 : Apx val fin u W1 a x k1 A1) (h2 : Apx val fin u W2 b y k2 A2)
    (h3 : Apx val fin u W c z k3 A3)
    (hk : k1 * (A2 + k2 / 1000) + A1 * k2 + k3 +
      ((A1 + k1 / 1000) * (A2 + k2 / 1000) + (A3 + k3 / 1000)) + 1 ≤ k)
    (hA : A1 * A2 + A3 ≤ A)
    (hO : (A1 + k1 / 1000) * (A2 + k2 / 1000) + (A3 + k3 / 1000) ≤ 64) :
    Apx val fin u W (FloatOps.mulAdd a b c) (x * y + z) k A := by
  have hW0 := s.nonneg
  have hu0 := R.u_nonneg
  have hk1 := h1.k_nonneg
  have hk2 := h2.k_nonneg
  have hk3 := h3.k_nonneg
  have hA1 := h1.A_nonneg
  have hA2 := h2.A_nonneg
  have hA3 := h3.A_nonneg
  obtain ⟨p1, p2, p3⟩ := Apx.prod R hu hW1 hW2 h1 h2
  rw [← hW] at p1 p2 p3
  have b3 := h3.abs_le hu hW0
  have hs : |val a * val b + val c| ≤
      ((A1 + k1 / 1000) * (A2 + k2 / 1000) + (A3 + k3 / 1000)) * W := by
    have := abs_add_le (val a * val b) (val c)
    linarith
  have hr := R.mulAdd a b c h1.fin h2.fin h3.fin
    (hs.trans ((mul_le_mul_of_nonneg_right hO hW0).trans s.over))
  have q1 : 0 ≤ k1 * (A2 + k2 / 1000) + A1 * k2 := by positivity
  have q2 : 0 ≤ (A1 + k1 / 1000) * (A2 + k2 / 1000) + (A3 + k3 / 1000) := by positivity
  refine ⟨hr.1, ?_, ?_, by linarith, le_trans (by positivity) hA⟩
  · have h4 : u * |val a * val b + val c| ≤
        u * (((A1 + k1 / 1000) * (A2 + k2 / 1000) + (A3 + k3 / 1000)) * W) := by gcongr
    have h5 := abs_add_le (val (FloatOps.mulAdd a b c) - (val a * val b + val c))
      ((val a * val b - x * y) + (val c - z))
    have h7 := abs_add_le (val a * val b - x * y) (val c - z)
    rw [show val (FloatOps.mulAdd a b c) - (val a * val b + val c) +
      ((val a * val b - x * y) + (val c - z)) =
        val (FloatOps.mulAdd a b c) - (x * y + z) by ring] at h5
    have h6 := mul_le_mul_of_nonneg_right hk (mul_nonneg hu0 hW0)
    have := s.under
    have := h3.err
    nlinarith [hr.2]
  · have h4 := abs_add_le (x * y) z
    have h5 := h3.size
    have h6 := mul_le_mul_of_nonneg_right hA hW0
    nlinarith

/-! ### Positive quantities -/

theorem Pos.sub_floats (hab : val b < val a) (ha : fin a) (hb : fin b) (hΩ : |val a - val b| ≤ Ω) :
    Pos val fin u (a -. b) (val a - val b) 1 := by
  have hp := sub_pos.2 hab
  have := R.sub a b ha hb hΩ
  refine ⟨this.1, hp, zero_le_one, ?_⟩
  rw [one_mul]
  simpa [abs_of_pos hp] using this.2

theorem Pos.lower (h : Pos val fin u b y k) (hk : k ≤ 100) : 9 / 10 * y ≤ val b := by
  have h1 := (abs_le.1 h.err).1
  have hp := h.pos
  have h2 : k * u * y ≤ 100 * (1 / 1000) * y := by
    have := h.k_nonneg
    have := R.u_nonneg
    gcongr
  linarith

/-- A quotient with a positive denominator, before rounding. -/
theorem Pos.quot (h : Pos val fin u b y k2) (hk : k2 ≤ 100) {e E : K} (he : |val a - x| ≤ e)
    (hE : |x| ≤ E) :
    |val a / val b - x / y| ≤ 10 / 9 * ((e + k2 * u * E) / y) := by
  have hu0 := R.u_nonneg
  have hy := h.pos
  have hl := Pos.lower R hu h hk
  have hb : 0 < val b := lt_of_lt_of_le (by positivity) hl
  have hk2 := h.k_nonneg
  have hE0 : 0 ≤ E := (abs_nonneg _).trans hE
  have he0 : 0 ≤ e := (abs_nonneg _).trans he
  have e1 : val a / val b - x / y = ((val a - x) * y - x * (val b - y)) / (val b * y) := by
    field_simp
    ring
  have e2 : |(val a - x) * y - x * (val b - y)| ≤ (e + k2 * u * E) * y := by
    refine (abs_sub _ _).trans ?_
    rw [abs_mul, abs_mul, abs_of_pos hy]
    have p1 : |val a - x| * y ≤ e * y := by gcongr
    have p2 : |x| * |val b - y| ≤ E * (k2 * u * y) := mul_le_mul hE h.err (abs_nonneg _) hE0
    nlinarith
  rw [e1, abs_div, abs_of_pos (mul_pos hb hy), div_le_iff₀ (mul_pos hb hy)]
  refine e2.trans ?_
  have e3 : 10 / 9 * ((e + k2 * u * E) / y) * (val b * y) = 10 / 9 * ((e + k2 * u * E) * val b) := by
    field_simp
  rw [e3]
  have : (e + k2 * u * E) * (9 / 10 * y) ≤ (e + k2 * u * E) * val b := by gcongr
  linarith

theorem Pos.div (h1 : Pos val fin u a x k1) (h2 : Pos val fin u b y k2) (hk2 : k2 ≤ 100)
    (hη : η ≤ u * (x / y)) (hΩ : 2 * (x / y) ≤ Ω) (hk' : k1 + k2 ≤ 900)
    (hk : (k1 + k2) * 10 / 9 + 2 + (k1 + k2) * 10 / 9 / 1000 ≤ k) :
    Pos val fin u (a /. b) (x / y) k := by
  have hu0 := R.u_nonneg
  have hx := h1.pos
  have hy := h2.pos
  have hq : 0 < x / y := div_pos hx hy
  have hn1 := h1.k_nonneg
  have hn2 := h2.k_nonneg
  have hl := Pos.lower R hu h2 hk2
  have hb : 0 < val b := lt_of_lt_of_le (by positivity) hl
  have hd := Pos.quot R hu h2 hk2 h1.err (le_of_eq (abs_of_pos hx))
  rw [show 10 / 9 * ((k1 * u * x + k2 * u * x) / y) = (k1 + k2) * 10 / 9 * (u * (x / y)) by ring] at hd
  set q := x / y
  set C := (k1 + k2) * 10 / 9 with hC
  have hC0 : 0 ≤ C := by positivity
  have hC1 : C ≤ 1000 := by rw [hC]; linarith
  have huq : u * q ≤ 1 / 1000 * q := by gcongr
  have hs : |val a / val b| ≤ q + C / 1000 * q := by
    have := abs_add_le (val a / val b - q) q
    rw [sub_add_cancel, abs_of_pos hq] at this
    have : C * (u * q) ≤ C * (1 / 1000 * q) := by gcongr
    linarith
  have hr := R.div a b h1.fin h2.fin hb.ne' (hs.trans (le_trans (by nlinarith) hΩ))
  refine ⟨hr.1, hq, by linarith [div_nonneg hC0 (by norm_num : (0 : K) ≤ 1000)], ?_⟩
  have h3 := abs_sub_le (val (a /. b)) (val a / val b) q
  have h4 : u * |val a / val b| ≤ u * (q + C / 1000 * q) := by gcongr
  have h5 := mul_le_mul_of_nonneg_right hk (mul_nonneg hu0 hq.le)
  have h6 := hr.2
  nlinarith

theorem Pos.add {m : K} (h1 : Pos val fin u a x k1) (h2 : Pos val fin u b y k2) (hm1 : k1 ≤ m)
    (hm2 : k2 ≤ m) (hm : m ≤ 1000) (hk : m + 1 + m / 1000 ≤ k) (hΩ : 2 * (x + y) ≤ Ω) :
    Pos val fin u (a +. b) (x + y) k := by
  have hu0 := R.u_nonneg
  have hx := h1.pos
  have hy := h2.pos
  have hn1 := h1.k_nonneg
  have hn2 := h2.k_nonneg
  have e1 : |val a + val b - (x + y)| ≤ m * (u * (x + y)) := by
    have := abs_add_le (val a - x) (val b - y)
    rw [show val a - x + (val b - y) = val a + val b - (x + y) by ring] at this
    have p1 := h1.err
    have p2 := h2.err
    have p3 : k1 * u * x ≤ m * u * x := by gcongr
    have p4 : k2 * u * y ≤ m * u * y := by gcongr
    linarith
  have hs : |val a + val b| ≤ (1 + m / 1000) * (x + y) := by
    have := abs_add_le (val a + val b - (x + y)) (x + y)
    rw [sub_add_cancel, abs_of_pos (add_pos hx hy)] at this
    have : m * (u * (x + y)) ≤ m * (1 / 1000 * (x + y)) := by
      have : 0 ≤ m := hn1.trans hm1
      gcongr
    linarith
  have hr := R.add a b h1.fin h2.fin (hs.trans (le_trans (by nlinarith) hΩ))
  refine ⟨hr.1, add_pos hx hy, by linarith, ?_⟩
  have h3 := abs_sub_le (val (a +. b)) (val a + val b) (x + y)
  have h4 : u * |val a + val b| ≤ u * ((1 + m / 1000) * (x + y)) := by gcongr
  have h5 := mul_le_mul_of_nonneg_right hk (mul_nonneg hu0 (add_pos hx hy).le)
  have h6 := hr.2
  nlinarith

/-- A quotient of a signed by a positive quantity. -/
theorem Apx.div {P : K} (s : Scale u η Ω W) (hW1 : 0 ≤ W1) (hW : W = W1 * P)
    (h1 : Apx val fin u W1 a x k1 A1) (h2 : Pos val fin u b y k2) (hk2 : k2 ≤ 100)
    (hyP : 1 / y ≤ P)
    (hk : (k1 + A1 * k2) * 10 / 9 + (A1 + (k1 + A1 * k2) * 10 / 9 / 1000) + 1 ≤ k) (hA : A1 ≤ A)
    (hO : A1 + (k1 + A1 * k2) * 10 / 9 / 1000 ≤ 64) :
    Apx val fin u W (a /. b) (x / y) k A := by
  have hu0 := R.u_nonneg
  have hW0 := s.nonneg
  have hy := h2.pos
  have hn1 := h1.k_nonneg
  have hn2 := h2.k_nonneg
  have hA1 := h1.A_nonneg
  have hl := Pos.lower R hu h2 hk2
  have hb : 0 < val b := lt_of_lt_of_le (by positivity) hl
  have hd := Pos.quot R hu h2 hk2 h1.err h1.size
  set C := (k1 + A1 * k2) * 10 / 9 with hC
  have hC0 : 0 ≤ C := by positivity
  rw [show 10 / 9 * ((k1 * (u * W1) + k2 * u * (A1 * W1)) / y) = C * (u * W1) * (1 / y) by
    rw [hC]; ring] at hd
  have hd' : |val a / val b - x / y| ≤ C * (u * W) := by
    refine hd.trans ?_
    rw [hW, show C * (u * (W1 * P)) = C * (u * W1) * P by ring]
    gcongr
  have hxy : |x / y| ≤ A1 * W := by
    rw [abs_div, abs_of_pos hy, hW, ← mul_assoc, div_eq_mul_one_div]
    exact mul_le_mul h1.size hyP (by positivity) (by positivity)
  have hs : |val a / val b| ≤ (A1 + C / 1000) * W := by
    have := abs_add_le (val a / val b - x / y) (x / y)
    rw [sub_add_cancel] at this
    have : C * (u * W) ≤ C * (1 / 1000 * W) := by gcongr
    linarith
  have hr := R.div a b h1.fin h2.fin hb.ne'
    (hs.trans ((mul_le_mul_of_nonneg_right hO hW0).trans s.over))
  refine ⟨hr.1, ?_, hxy.trans (mul_le_mul_of_nonneg_right hA hW0), ?_, hA1.trans hA⟩
  · have h3 := abs_sub_le (val (a /. b)) (val a / val b) (x / y)
    have h4 : u * |val a / val b| ≤ u * ((A1 + C / 1000) * W) := by gcongr
    have h5 := mul_le_mul_of_nonneg_right hk (mul_nonneg hu0 hW0)
    have h6 := hr.2
    have := s.under
    nlinarith
  · have : 0 ≤ C / 1000 := by positivity
    linarith

/-! ### The pieces of the cubic rules -/

theorem apx_one (hn : ExactSign val fin) (hW : 1 ≤ W) : Apx val fin u W (one : T) 1 0 1 where
  fin := hn.one.1
  err := by rw [hn.one.2]; simp
  size := by simpa using hW
  k_nonneg := le_rfl
  A_nonneg := zero_le_one

theorem pos_one (hn : ExactSign val fin) : Pos val fin u (one : T) 1 0 where
  fin := hn.one.1
  pos := one_pos
  k_nonneg := le_rfl
  err := by rw [hn.one.2]; simp

/-- The centered difference in exact arithmetic. -/
def centeredExact (y0 y1 y2 h01 h12 : K) : K :=
  h01 / (h01 + h12) * ((y2 - y1) / h12) + h12 / (h12 + h01) * ((y1 - y0) / h01)

theorem apx_centeredDiff (fma : Bool) {B ρ : K} (hB : 0 ≤ B)
    (s1 : Scale u η Ω 1) (sB : Scale u η Ω B) (sW : Scale u η Ω (B * ρ))
    (hη : η * (1 + ρ) ≤ u) {y0 y1 y2 p q : T} {p' q' : K} (f0 : fin y0) (f1 : fin y1) (f2 : fin y2)
    (b0 : |val y0| ≤ B) (b1 : |val y1| ≤ B) (b2 : |val y2| ≤ B)
    (hp : Pos val fin u p p' 5) (hq : Pos val fin u q q' 5)
    (hpq : p' ≤ ρ * q') (hqp : q' ≤ ρ * p') (hp1 : 1 / p' ≤ ρ) (hq1 : 1 / q' ≤ ρ)
    (hΩ : 2 * (p' + q') ≤ Ω) :
    Apx val fin u (B * ρ) (centeredDiff fma y0 y1 y2 p q)
      (centeredExact (val y0) (val y1) (val y2) p' q') 111 4 := by
  have hu0 := R.u_nonneg
  have hη0 := R.η_nonneg
  have frac : ∀ {a b : T} {a' b' : K}, Pos val fin u a a' 5 → Pos val fin u b b' 5 →
      b' ≤ ρ * a' → 2 * (a' + b') ≤ Ω → Apx val fin u 1 (a /. (a +. b)) (a' / (a' + b')) 16 1 := by
    intro a b a' b' ha hb hab hΩ'
    have ha0 := ha.pos
    have hb0 := hb.pos
    have hs := Pos.add R hu (m := 5) (k := 7) ha hb le_rfl le_rfl (by norm_num) (by norm_num) hΩ'
    have hle : a' / (a' + b') ≤ 1 := by
      rw [div_le_one (by positivity)]; linarith
    have hge : 1 ≤ a' / (a' + b') * (1 + ρ) := by
      rw [div_mul_eq_mul_div, le_div_iff₀ (by positivity)]; nlinarith
    have hfr : 0 < a' / (a' + b') := by positivity
    have hd := Pos.div R hu (k := 16) ha hs (by norm_num) (by
        have h1 : η * 1 ≤ η * (a' / (a' + b') * (1 + ρ)) := by gcongr
        have h2 : η * (1 + ρ) * (a' / (a' + b')) ≤ u * (a' / (a' + b')) := by gcongr
        linarith) (by have := s1.over; linarith) (by norm_num) (by norm_num)
    refine ⟨hd.fin, hd.err.trans ?_, ?_, by norm_num, zero_le_one⟩
    · rw [mul_one]; nlinarith
    · rw [abs_of_pos hfr]; linarith
  have diff : ∀ {a b : T}, fin a → fin b → |val a| ≤ B → |val b| ≤ B →
      Apx val fin u B (a -. b) (val a - val b) 2 2 := fun fa fb ha hb =>
    Apx.sub R hu sB (Apx.exact fa ha) (Apx.exact fb hb) (by norm_num) (by norm_num) (by norm_num)
  have ha := frac hp hq hqp hΩ
  have hc := frac hq hp hpq (by linarith)
  have hb := Apx.div R hu sW hB rfl (k := 17) (A := 2) (diff f2 f1 b2 b1) hq (by norm_num) hq1
    (by norm_num) le_rfl (by norm_num)
  have hd := Apx.div R hu sW hB rfl (k := 17) (A := 2) (diff f1 f0 b1 b0) hp (by norm_num) hp1
    (by norm_num) le_rfl (by norm_num)
  have hW : B * ρ = 1 * (B * ρ) := (one_mul _).symm
  have hcd := Apx.mul R hu sW zero_le_one sW.nonneg hW (k := 53) (A := 2) hc hd (by norm_num)
    (by norm_num) (by norm_num)
  unfold centeredDiff centeredExact
  cases fma with
  | true =>
    exact Apx.mulAdd R hu sW zero_le_one sW.nonneg hW ha hb hcd (by norm_num) (by norm_num)
      (by norm_num)
  | false =>
    have hab := Apx.mul R hu sW zero_le_one sW.nonneg hW (k := 53) (A := 2) ha hb (by norm_num)
      (by norm_num) (by norm_num)
    exact Apx.add R hu sW hab hcd (by norm_num) (by norm_num) (by norm_num)

theorem apx_naturalK1 (hn : ExactSign val fin) (fma : Bool) (s1 : Scale u η Ω 1)
    (s : Scale u η Ω W) {dy k0 : T} {dy' k0' : K} (hd : Apx val fin u W dy dy' 2 2)
    (hk : Apx val fin u W k0 k0' 111 4) :
    Apx val fin u W (naturalK1 fma ((one : T) +. one) dy k0) (2 * dy' - k0') 134 8 := by
  have ht : Apx val fin u 1 ((one : T) +. one) 2 2 2 := by
    have := Apx.add R hu s1 (k := 2) (A := 2) (apx_one R hu hn le_rfl) (apx_one R hu hn le_rfl)
      (by norm_num) (by norm_num) (by norm_num)
    rwa [one_add_one_eq_two] at this
  have hW : W = 1 * W := (one_mul _).symm
  unfold naturalK1
  cases fma with
  | true =>
    rw [sub_eq_add_neg]
    exact Apx.mulAdd R hu s zero_le_one s.nonneg hW ht hd (hk.neg hn) (by norm_num) (by norm_num)
      (by norm_num)
  | false =>
    have hm := Apx.mul R hu s zero_le_one s.nonneg hW (k := 14) (A := 4) ht hd (by norm_num)
      (by norm_num) (by norm_num)
    exact Apx.sub R hu s hm hk (by norm_num) (by norm_num) (by norm_num)

/-- The Hermite cubic in exact arithmetic. -/
def hermiteExact (t y0 dy k0 k1 : K) : K :=
  y0 + t * (dy + (k0 - dy) + t * (-k1 + dy - (k0 - dy + (k0 - dy)) +
    t * (k0 - dy - (-k1 + dy))))

theorem apx_hermite (hn : ExactSign val fin) (fma : Bool) {r : K} (hr : 1 ≤ r) (s : Scale u η Ω W)
    (s3 : Scale u η Ω (r * (r * (r * W)))) {t y0 dy k0 k1 : T} {t' y0' dy' k0' k1' : K}
    (ht : Apx val fin u r t t' 5 1) (h0 : Apx val fin u W y0 y0' 0 1)
    (hd : Apx val fin u W dy dy' 2 2) (hk0 : Apx val fin u W k0 k0' 111 4)
    (hk1 : Apx val fin u W k1 k1' 134 8) :
    Apx val fin u (r * (r * (r * W))) (hermite fma t y0 dy k0 k1)
      (hermiteExact t' y0' dy' k0' k1') 1593 47 := by
  have hu0 := R.u_nonneg
  have hW := s.nonneg
  have hr0 : 0 ≤ r := zero_le_one.trans hr
  have m1 : W ≤ r * W := le_mul_of_one_le_left hW hr
  have m2 : r * W ≤ r * (r * W) := le_mul_of_one_le_left (by positivity) hr
  have m3 : r * (r * W) ≤ r * (r * (r * W)) := le_mul_of_one_le_left (by positivity) hr
  have s1 : Scale u η Ω (r * W) := ⟨by positivity,
    s.under.trans (mul_le_mul_of_nonneg_left m1 hu0), by have := s3.over; linarith⟩
  have s2 : Scale u η Ω (r * (r * W)) := ⟨by positivity,
    s1.under.trans (mul_le_mul_of_nonneg_left m2 hu0), by have := s3.over; linarith⟩
  have ha := Apx.sub R hu s (k := 120) (A := 6) hk0 hd (by norm_num) (by norm_num) (by norm_num)
  have hb := Apx.add R hu s (k := 147) (A := 10) (hk1.neg hn) hd (by norm_num) (by norm_num)
    (by norm_num)
  have hc1 := Apx.add R hu s (k := 131) (A := 8) hd ha (by norm_num) (by norm_num) (by norm_num)
  have h2a := Apx.add R hu s (k := 253) (A := 12) ha ha (by norm_num) (by norm_num) (by norm_num)
  have hc2 := Apx.sub R hu s (k := 423) (A := 22) hb h2a (by norm_num) (by norm_num) (by norm_num)
  have hc3 := Apx.sub R hu s (k := 284) (A := 16) ha hb (by norm_num) (by norm_num) (by norm_num)
  have hc2' := hc2.mono hu0 hW m1 le_rfl le_rfl
  have hc1' := hc1.mono hu0 hW (m1.trans m2) le_rfl le_rfl
  have h0' := h0.mono hu0 hW (m1.trans (m2.trans m3)) le_rfl le_rfl
  unfold hermite hermiteExact
  cases fma with
  | true =>
    have q2 := Apx.mulAdd R hu s1 hW hr0 (mul_comm _ _) (k := 845) (A := 38) hc3 ht hc2'
      (by norm_num) (by norm_num) (by norm_num)
    have q4 := Apx.mulAdd R hu s2 s1.nonneg hr0 (mul_comm _ _) (k := 1259) (A := 46) q2 ht hc1'
      (by norm_num) (by norm_num) (by norm_num)
    have q6 := Apx.mulAdd R hu s3 s2.nonneg hr0 (mul_comm _ _) (k := 1593) (A := 47) q4 ht h0'
      (by norm_num) (by norm_num) (by norm_num)
    exact q6.congr (by ring)
  | false =>
    have q1 := Apx.mul R hu s1 hr0 hW rfl (k := 383) (A := 16) ht hc3 (by norm_num) (by norm_num)
      (by norm_num)
    have q2 := Apx.add R hu s1 (k := 845) (A := 38) hc2' q1 (by norm_num) (by norm_num)
      (by norm_num)
    have q3 := Apx.mul R hu s2 hr0 s1.nonneg rfl (k := 1080) (A := 38) ht q2 (by norm_num)
      (by norm_num) (by norm_num)
    have q4 := Apx.add R hu s2 (k := 1259) (A := 46) hc1' q3 (by norm_num) (by norm_num)
      (by norm_num)
    have q5 := Apx.mul R hu s3 hr0 s2.nonneg rfl (k := 1544) (A := 46) ht q4 (by norm_num)
      (by norm_num) (by norm_num)
    exact Apx.add R hu s3 h0' q5 (by norm_num) (by norm_num) (by norm_num)

theorem apx_linExtrap (hn : ExactSign val fin) (fma : Bool) {r : K} (hr : 1 ≤ r)
    (s : Scale u η Ω W) (sr : Scale u η Ω r) (s3 : Scale u η Ω (r * (r * (r * W))))
    {t y1 k1 : T} {t' y1' k1' : K}
    (ht : Apx val fin u r t t' 5 1) (h1 : Apx val fin u W y1 y1' 0 1)
    (hk1 : Apx val fin u W k1 k1' 134 8) :
    Apx val fin u (r * (r * (r * W))) (linExtrap fma y1 k1 t) (y1' + k1' * (t' - 1)) 1593 47 := by
  have hu0 := R.u_nonneg
  have hW := s.nonneg
  have hr0 : 0 ≤ r := zero_le_one.trans hr
  have m1 : W ≤ r * W := le_mul_of_one_le_left hW hr
  have m2 : r * W ≤ r * (r * W) := le_mul_of_one_le_left (by positivity) hr
  have m3 : r * (r * W) ≤ r * (r * (r * W)) := le_mul_of_one_le_left (by positivity) hr
  have s1 : Scale u η Ω (r * W) := ⟨by positivity,
    s.under.trans (mul_le_mul_of_nonneg_left m1 hu0), by have := s3.over; linarith⟩
  have hd := Apx.sub R hu sr (k := 8) (A := 2) ht (apx_one R hu hn hr) (by norm_num) (by norm_num)
    (by norm_num)
  have h1' := h1.mono hu0 hW m1 le_rfl le_rfl
  suffices Apx val fin u (r * W) (linExtrap fma y1 k1 t) (y1' + k1' * (t' - 1)) 369 17 from
    this.mono hu0 s1.nonneg (m2.trans m3) (by norm_num) (by norm_num)
  unfold linExtrap
  cases fma with
  | true =>
    rw [add_comm]
    exact Apx.mulAdd R hu s1 hW hr0 (mul_comm _ _) hk1 hd h1' (by norm_num) (by norm_num)
      (by norm_num)
  | false =>
    have hm := Apx.mul R hu s1 hW hr0 (mul_comm _ _) (k := 351) (A := 16) hk1 hd (by norm_num)
      (by norm_num) (by norm_num)
    exact Apx.add R hu s1 h1' hm (by norm_num) (by norm_num) (by norm_num)

end

end

/-! ### The rule on a rectilinear axis -/

section
attribute [local instance] exactOps
variable {T K : Type} [FloatOps T] [Field K] [LinearOrder K] [IsStrictOrderedRing K] [FloorRing K]
  {val : T → K} {fin : T → Prop} {u η Ω : K}

/-- How the widths of the cells at the four nodes of the footprint, and the distance of the
observation, enter the error bound. -/
structure CellShape (g : Fin 4 → K) (x ρ r : K) (sat : Saturation) : Prop where
  incr0 : g 0 < g 1
  incr1 : g 1 < g 2
  incr2 : g 2 < g 3
  ratio0 : g 1 - g 0 ≤ ρ * (g 2 - g 1)
  ratio0' : g 2 - g 1 ≤ ρ * (g 1 - g 0)
  ratio1 : g 2 - g 1 ≤ ρ * (g 3 - g 2)
  ratio1' : g 3 - g 2 ≤ ρ * (g 2 - g 1)
  low : sat = .insideLow ∨ sat = .outsideLow → |x - g 1| ≤ r * (g 1 - g 0)
  mid : sat = .none → |x - g 1| ≤ r * (g 2 - g 1)
  high : sat = .insideHigh ∨ sat = .outsideHigh → |x - g 2| ≤ r * (g 3 - g 2)

/-- Scales at which the cubic rule neither underflows badly nor overflows. -/
structure CubicScales (u η Ω B ρ r : K) : Prop where
  size : 0 ≤ B
  ratio : 1 ≤ ρ
  reach : 1 ≤ r
  underRatio : η * (1 + ρ) ≤ u
  under : η ≤ u * B
  overRatio : 64 * ρ ≤ Ω
  overReach : 64 * r ≤ Ω
  over : 64 * (r ^ 3 * (B * ρ)) ≤ Ω

theorem apx_rectilinear (R : Rounds val fin u η Ω) (hu : u ≤ 1 / 1000) (hn : ExactSign val fin)
    {B ρ r : K} (S : CubicScales u η Ω B ρ r) (f1 f2 f3 lin : Bool) {v g : Fin 4 → T} {x : T}
    {sat : Saturation} (hv : ∀ i, fin (v i) ∧ |val (v i)| ≤ B)
    (hg : ∀ i, fin (g i) ∧ 2 * |val (g i)| ≤ Ω) (hx : fin x ∧ 2 * |val x| ≤ Ω)
    (C : CellShape (fun i => val (g i)) (val x) ρ r sat) :
    fin (cubicInnerRectilinear f1 f2 f3 v g x sat lin) ∧
    |val (cubicInnerRectilinear f1 f2 f3 v g x sat lin) -
      cubicInnerRectilinear false false false (fun i => val (v i)) (fun i => val (g i)) (val x)
        sat lin| ≤ 1593 * (u * (r ^ 3 * (B * ρ))) := by
  have hu0 := R.u_nonneg
  have hη0 := R.η_nonneg
  have hB := S.size
  have hρ := S.ratio
  have hr := S.reach
  have hρ0 : 0 < ρ := lt_of_lt_of_le one_pos hρ
  have hr0 : 0 < r := lt_of_lt_of_le one_pos hr
  have hηu : η ≤ u := by nlinarith [S.underRatio]
  have hηρ : η * ρ ≤ u := by nlinarith [S.underRatio]
  have hr3 : 1 ≤ r ^ 3 := one_le_pow₀ hr
  have e3 : r * (r * (r * (B * ρ))) = r ^ 3 * (B * ρ) := by ring
  have hBρ : B ≤ B * ρ := le_mul_of_one_le_right hB hρ
  have hBρ3 : B * ρ ≤ r ^ 3 * (B * ρ) := le_mul_of_one_le_left (by positivity) hr3
  have s1 : Scale u η Ω 1 := ⟨zero_le_one, by linarith, by linarith [S.overRatio]⟩
  have sB : Scale u η Ω B := ⟨hB, S.under, by linarith [S.over]⟩
  have sW : Scale u η Ω (B * ρ) :=
    ⟨by positivity, S.under.trans (by gcongr), by linarith [S.over]⟩
  have s3 : Scale u η Ω (r * (r * (r * (B * ρ)))) := by
    rw [e3]
    exact ⟨by positivity, sW.under.trans (by gcongr), S.over⟩
  have sr : Scale u η Ω r := ⟨hr0.le, hηu.trans (by nlinarith), S.overReach⟩
  -- widths
  have wide : ∀ {i j : Fin 4}, val (g i) < val (g j) →
      Pos val fin u (g j -. g i) (val (g j) - val (g i)) 1 := fun {i j} hij =>
    Pos.sub_floats R hu hij (hg j).1 (hg i).1 (by
      have := abs_sub (val (g j)) (val (g i))
      linarith [(hg i).2, (hg j).2])
  have w01 := wide C.incr0
  have w12 := wide C.incr1
  have w23 := wide C.incr2
  have d01 := w01.pos
  have d12 := w12.pos
  have d23 := w23.pos
  have ratio : ∀ {a b : T} {a' b' : K}, Pos val fin u a a' 1 → Pos val fin u b b' 1 →
      a' ≤ ρ * b' → b' ≤ ρ * a' → Pos val fin u (a /. b) (a' / b') 5 ∧ a' / b' ≤ ρ ∧
        1 / (a' / b') ≤ ρ := by
    intro a b a' b' ha hb hab hba
    have ha0 := ha.pos
    have hb0 := hb.pos
    have h1 : a' / b' ≤ ρ := (div_le_iff₀ hb0).2 hab
    have h2 : 1 / (a' / b') ≤ ρ := by
      rw [one_div_div]; exact (div_le_iff₀ ha0).2 hba
    have h3 : 0 < a' / b' := div_pos ha0 hb0
    have h4 : 1 ≤ ρ * (a' / b') := (div_le_iff₀ h3).1 h2
    refine ⟨Pos.div R hu ha hb (by norm_num) ?_ (by linarith [S.overRatio]) (by norm_num)
      (by norm_num), h1, h2⟩
    calc η = η * 1 := (mul_one _).symm
      _ ≤ η * (ρ * (a' / b')) := by gcongr
      _ = η * ρ * (a' / b') := by ring
      _ ≤ u * (a' / b') := by gcongr
  have p1 : Pos val fin u (one : T) 1 5 := by
    have := pos_one R hu hn
    exact ⟨this.fin, this.pos, by norm_num, this.err.trans (by nlinarith)⟩
  have one_le : 1 / (1 : K) ≤ ρ := by rw [div_one]; exact hρ
  -- centered differences with a ratio on either side
  have cdl : ∀ (i j k : Fin 4) {a b : T} {a' b' : K}, Pos val fin u a a' 1 → Pos val fin u b b' 1 →
      a' ≤ ρ * b' → b' ≤ ρ * a' →
      Apx val fin u (B * ρ) (centeredDiff f1 (v i) (v j) (v k) (a /. b) one)
        (centeredExact (val (v i)) (val (v j)) (val (v k)) (a' / b') 1) 111 4 := by
    intro i j k a b a' b' ha hb hab hba
    obtain ⟨q1, q2, q3⟩ := ratio ha hb hab hba
    have hq := q1.pos
    exact apx_centeredDiff R hu f1 hB s1 sB sW S.underRatio (hv i).1 (hv j).1 (hv k).1 (hv i).2
      (hv j).2 (hv k).2 q1 p1 (by linarith) (by rw [div_le_iff₀ hq] at q3; exact q3) q3 one_le
      (by linarith [S.overRatio])
  have cdr : ∀ (i j k : Fin 4) {a b : T} {a' b' : K}, Pos val fin u a a' 1 → Pos val fin u b b' 1 →
      a' ≤ ρ * b' → b' ≤ ρ * a' →
      Apx val fin u (B * ρ) (centeredDiff f1 (v i) (v j) (v k) one (a /. b))
        (centeredExact (val (v i)) (val (v j)) (val (v k)) 1 (a' / b')) 111 4 := by
    intro i j k a b a' b' ha hb hab hba
    obtain ⟨q1, q2, q3⟩ := ratio ha hb hab hba
    have hq := q1.pos
    exact apx_centeredDiff R hu f1 hB s1 sB sW S.underRatio (hv i).1 (hv j).1 (hv k).1 (hv i).2
      (hv j).2 (hv k).2 p1 q1 (by rw [div_le_iff₀ hq] at q3; exact q3) (by linarith) one_le q3
      (by linarith [S.overRatio])
  have hdy : ∀ i j : Fin 4, Apx val fin u (B * ρ) (v i -. v j) (val (v i) - val (v j)) 2 2 :=
    fun i j => (Apx.sub R hu sB (k := 2) (A := 2) (Apx.exact (hv i).1 (hv i).2)
      (Apx.exact (hv j).1 (hv j).2) (by norm_num) (by norm_num) (by norm_num)).mono hu0 hB hBρ
        le_rfl le_rfl
  have hy : ∀ i : Fin 4, Apx val fin u (B * ρ) (v i) (val (v i)) 0 1 := fun i =>
    Apx.exact (hv i).1 ((hv i).2.trans hBρ)
  -- the normalised coordinate
  have hnum : ∀ (i : Fin 4) (w : K), |val x - val (g i)| ≤ r * w → 0 < w →
      Apx val fin u (r * w) (x -. g i) (val x - val (g i)) 1 1 := by
    intro i w hw h0
    have := R.sub x (g i) hx.1 (hg i).1 (by
      have := abs_sub (val x) (val (g i))
      linarith [(hg i).2, hx.2])
    refine ⟨this.1, this.2.trans ?_, by rw [one_mul]; exact hw, zero_le_one, zero_le_one⟩
    rw [one_mul]; gcongr
  have quot : ∀ {a b : T} {a' w : K}, 0 < w → Apx val fin u (r * w) a a' 1 1 →
      Pos val fin u b w 1 → Apx val fin u r (a /. b) (a' / w) 5 1 := by
    intro a b a' w h0 ha hb
    exact Apx.div R hu sr (by positivity) (P := 1 / w) (by field_simp) ha hb (by norm_num) le_rfl
      (by norm_num) le_rfl (by norm_num)
  have fin_of : ∀ {a : T} {y : K}, Apx val fin u (r * (r * (r * (B * ρ)))) a y 1593 47 →
      fin a ∧ |val a - y| ≤ 1593 * (u * (r ^ 3 * (B * ρ))) := fun ha => by
    have := ha.err; rw [e3] at this; exact ⟨ha.fin, this⟩
  cases sat with
  | none =>
    have hk0 := cdl 0 1 2 w01 w12 C.ratio0 C.ratio0'
    have hk1 := (cdr 1 2 3 w23 w12 C.ratio1' C.ratio1).mono hu0 sW.nonneg le_rfl
      (by norm_num : (111 : K) ≤ 134) (by norm_num : (4 : K) ≤ 8)
    have ht := quot d12 (hnum 1 _ (C.mid rfl) d12) w12
    exact fin_of (apx_hermite R hu hn f1 hr sW s3 ht (hy 1) (hdy 2 1) hk0 hk1)
  | insideLow =>
    have hk0 := (cdr 0 1 2 w12 w01 C.ratio0' C.ratio0).neg hn
    have hk1 := apx_naturalK1 R hu hn f2 s1 sW (hdy 0 1) hk0
    have ht := quot d01 ((hnum 1 _ (C.low (.inl rfl)) d01).neg hn) w01
    have := apx_hermite R hu hn f1 hr sW s3 ht (hy 1) (hdy 0 1) hk0 hk1
    rw [← one_add_one_eq_two] at this
    exact fin_of this
  | outsideLow =>
    have hk0 := (cdr 0 1 2 w12 w01 C.ratio0' C.ratio0).neg hn
    have hk1 := apx_naturalK1 R hu hn false s1 sW (hdy 0 1) hk0
    have ht := quot d01 ((hnum 1 _ (C.low (.inr rfl)) d01).neg hn) w01
    cases lin with
    | true =>
      have := apx_linExtrap R hu hn f3 hr sW sr s3 ht (hy 0) hk1
      rw [← one_add_one_eq_two] at this
      exact fin_of this
    | false =>
      have := apx_hermite R hu hn f1 hr sW s3 ht (hy 1) (hdy 0 1) hk0 hk1
      rw [← one_add_one_eq_two] at this
      exact fin_of this
  | insideHigh =>
    have hk0 := cdl 1 2 3 w12 w23 C.ratio1 C.ratio1'
    have hk1 := apx_naturalK1 R hu hn f2 s1 sW (hdy 3 2) hk0
    have ht := quot d23 (hnum 2 _ (C.high (.inl rfl)) d23) w23
    have := apx_hermite R hu hn f1 hr sW s3 ht (hy 2) (hdy 3 2) hk0 hk1
    rw [← one_add_one_eq_two] at this
    exact fin_of this
  | outsideHigh =>
    have hk0 := cdl 1 2 3 w12 w23 C.ratio1 C.ratio1'
    have hk1 := apx_naturalK1 R hu hn false s1 sW (hdy 3 2) hk0
    have ht := quot d23 (hnum 2 _ (C.high (.inr rfl)) d23) w23
    cases lin with
    | true =>
      have := apx_linExtrap R hu hn f3 hr sW sr s3 ht (hy 3) hk1
      rw [← one_add_one_eq_two] at this
      exact fin_of this
    | false =>
      have := apx_hermite R hu hn f1 hr sW s3 ht (hy 2) (hdy 3 2) hk0 hk1
      rw [← one_add_one_eq_two] at this
      exact fin_of this

/-! ### Cells found by comparing floats -/

theorem float_cellsBelow (hcmp : ExactCompare val fin) {grid : List T} {x : T} (hx : fin x)
    (hfin : ∀ a ∈ grid, fin a) (hi : Incr grid.length (fun i => (grid.map val).getD i 0)) :
    cellsBelow grid x = cellsBelow (grid.map val) (val x) := by
  have hnode : ∀ (i : Nat) (h : i < grid.length), (grid.map val).getD i 0 = val grid[i] :=
    fun i h => by rw [List.getD_eq_getElem _ _ (by simpa using h), List.getElem_map]
  have hlt : ∀ (i : Nat) (h : i < grid.length),
      (grid[i] <. x) = true ↔ (grid.map val).getD i 0 < val x := fun i h => by
    rw [hnode i h]; exact hcmp _ _ (hfin _ (List.getElem_mem h)) hx
  have h1 : ∀ i (_ : i < grid.length), (grid.map val).getD i 0 < val x ↔ i < cellsBelow grid x := by
    intro i h
    rw [← hlt i h]
    refine cellsBelow_iff (fun i j hij hj hb => ?_) i h
    rw [hlt j hj] at hb
    rw [hlt i (by omega)]
    exact lt_of_le_of_lt (hi.le hij hj) hb
  have h2 := cellsBelow_exact (grid := grid.map val) (by rwa [List.length_map]) (val x)
  have l1 := cellsBelow_le grid x
  have l2 := cellsBelow_le (grid.map val) (val x)
  rw [List.length_map] at h2 l2
  rcases lt_trichotomy (cellsBelow grid x) (cellsBelow (grid.map val) (val x)) with h | h | h
  · have := (h1 _ (by omega)).1 ((h2 _ (by omega)).2 h); omega
  · exact h
  · have := (h2 _ (by omega)).1 ((h1 _ (by omega)).2 h); omega

/-- The footprint of an observation in the grid range. -/
theorem cellShape_of_inRange {n : Nat} {p : Nat → K} (h4 : 4 ≤ n) (hi : Incr n p) {ρ x : K}
    (hρ : MeshRatio n p ρ) (hx : InRange n p x) {b : Nat} (hb : b ≤ n)
    (hbel : ∀ i < n, p i < x ↔ i < b) :
    CellShape (fun q : Fin 4 => p (min (b - 2) (n - 4) + q.val)) x ρ 1 (satRectilinear n b) := by
  set o := min (b - 2) (n - 4) with ho
  have ho4 : o + 4 ≤ n := by omega
  have i0 := hi o (by omega)
  have i1 := hi (o + 1) (by omega)
  have i2 := hi (o + 2) (by omega)
  have r0 := hρ o (by omega)
  have r1 := hρ (o + 1) (by omega)
  refine ⟨i0, i1, i2, r0.1, r0.2, r1.1, r1.2, fun hs => ?_, fun hs => ?_, fun hs => ?_⟩
  · have hb1 : b ≤ 1 := by
      unfold satRectilinear at hs
      by_contra hc
      rw [if_neg (by omega), if_neg (by omega)] at hs
      split_ifs at hs <;> rcases hs with h | h <;> cases h
    have hx1 : x ≤ p 1 := not_lt.1 fun h => by have := (hbel 1 (by omega)).1 h; omega
    have o0 : o = 0 := by omega
    have hx0 := hx.1
    rw [o0] at i0 ⊢
    show |x - p (0 + 1)| ≤ 1 * (p (0 + 1) - p (0 + 0))
    simp only [zero_add] at *
    rw [abs_le]
    constructor <;> linarith
  · have hb1 : 2 ≤ b ∧ b + 2 ≤ n := by
      unfold satRectilinear at hs
      split_ifs at hs
      omega
    have ob : o + 2 = b := by omega
    have h1 := (hbel (o + 1) (by omega)).2 (by omega)
    have h2 : x ≤ p (o + 2) := not_lt.1 fun h => by
      have := (hbel (o + 2) (by omega)).1 h; omega
    show |x - p (o + 1)| ≤ 1 * (p (o + 2) - p (o + 1))
    rw [abs_le]
    constructor <;> linarith
  · have hb1 : n ≤ b + 1 := by
      unfold satRectilinear at hs
      by_contra hc
      rw [if_neg (show ¬ b = n by omega), if_neg (show ¬ b + 1 = n by omega)] at hs
      split_ifs at hs <;> rcases hs with h | h <;> cases h
    have h1 := (hbel (o + 2) (by omega)).2 (by omega)
    have h2 := hx.2
    rw [show n - 1 = o + 3 by omega] at h2
    show |x - p (o + 2)| ≤ 1 * (p (o + 3) - p (o + 2))
    rw [abs_le]
    constructor <;> linarith

/-! ### Accumulation over the axes -/

/-- If every exact axis rule amplifies differences by at most `Λ`, and the float rule follows it up to
a relative error `κ`, the errors accumulate as follows. -/
theorem rounds_axisByAxis {Λ κ M : K} (hΛ : 0 ≤ Λ) : ∀ {N : Nat} (S : Fin N → Nat → Prop)
    (opT : Fin N → (Nat → T) → T) (op : Fin N → (Nat → K) → K) (g : (Fin N → Nat) → T)
    (_ : ∀ k f f' ε, (∀ i, S k i → |f i - f' i| ≤ ε) → |op k f - op k f'| ≤ Λ * ε)
    (_ : ∀ k B f, (∀ i, S k i → |f i| ≤ B) → |op k f| ≤ Λ * B)
    (_ : ∀ k j f, j < N → (∀ i, S k i → fin (f i) ∧ |val (f i)| ≤ (Λ + κ) ^ j * M) →
      fin (opT k f) ∧ |val (opT k f) - op k fun i => val (f i)| ≤ κ * ((Λ + κ) ^ j * M))
    (_ : ∀ loc : Fin N → Nat, (∀ k, S k (loc k)) → fin (g loc) ∧ |val (g loc)| ≤ M),
    fin (axisByAxis opT g) ∧ |val (axisByAxis opT g)| ≤ (Λ + κ) ^ N * M ∧
      |val (axisByAxis opT g) - axisByAxis op fun loc => val (g loc)| ≤
        ((Λ + κ) ^ N - Λ ^ N) * M
  | 0, S, opT, op, g, _, _, _, hg => by
    have := hg (fun k => k.elim0) (fun k => k.elim0)
    rw [axisByAxis, axisByAxis]
    exact ⟨this.1, by simpa using this.2, by simp⟩
  | N + 1, S, opT, op, g, h1, h2, h3, hg => by
    have ih : ∀ i, S (Fin.last N) i → _ := fun i hi =>
      rounds_axisByAxis hΛ (fun k : Fin N => S k.castSucc) (fun k => opT k.castSucc)
        (fun k => op k.castSucc) (fun loc => g (Fin.snoc (α := fun _ => Nat) loc i))
        (fun k => h1 k.castSucc) (fun k => h2 k.castSucc)
        (fun k j f hj => h3 k.castSucc j f (Nat.lt_succ_of_lt hj))
        (fun loc hl => hg _ fun k => by
          refine Fin.lastCases ?_ (fun k => ?_) k
          · rw [Fin.snoc_last]; exact hi
          · rw [Fin.snoc_castSucc]; exact hl k)
    rw [axisByAxis, axisByAxis]
    have a1 := h3 (Fin.last N) N _ (Nat.lt_succ_self N) fun i hi => ⟨(ih i hi).1, (ih i hi).2.1⟩
    have a2 := h2 (Fin.last N) _ _ fun i hi => (ih i hi).2.1
    have a3 := h1 (Fin.last N) _ _ _ fun i hi => (ih i hi).2.2
    refine ⟨a1.1, ?_, ?_⟩
    · have := abs_add_le (val (opT (Fin.last N) fun i => axisByAxis (fun k => opT k.castSucc)
          fun loc => g (Fin.snoc (α := fun _ => Nat) loc i)) -
        op (Fin.last N) fun i => val (axisByAxis (fun k => opT k.castSucc)
          fun loc => g (Fin.snoc (α := fun _ => Nat) loc i)))
        (op (Fin.last N) fun i => val (axisByAxis (fun k => opT k.castSucc)
          fun loc => g (Fin.snoc (α := fun _ => Nat) loc i)))
      rw [sub_add_cancel] at this
      refine this.trans ((add_le_add a1.2 a2).trans (le_of_eq ?_))
      ring
    · refine (abs_sub_le _ _ _).trans ((add_le_add a1.2 a3).trans (le_of_eq ?_))
      ring

end

end Interpn
