import Verif.Lemmas.RoundingCubic

/-! Rounding errors of the cubic rule on a regular axis, including the selection of a neighbouring
cell. -/

set_option autoImplicit false
set_option linter.unusedSectionVars false

namespace Interpn
open FloatOps

section
attribute [local instance] exactOps
variable {T K : Type} [FloatOps T] [Field K] [LinearOrder K] [IsStrictOrderedRing K] [FloorRing K]
  {val : T → K} {fin : T → Prop} {u η Ω : K}

/-- The relative position is within `r` of the inner node of the cell. -/
def Reach (t r : K) : Saturation → Prop
  | .none | .insideLow | .outsideLow => |t| ≤ r
  | .insideHigh | .outsideHigh => |t - 1| ≤ r

/-! ### The float rule -/

theorem apx_regular (R : Rounds val fin u η Ω) (hu : u ≤ 1 / 1000) (hn : ExactSign val fin)
    {B r : K} (S : CubicScales u η Ω B 1 r) (f1 f2 lin : Bool) {v : Fin 4 → T} {t : T}
    {sat : Saturation} (hv : ∀ i, fin (v i) ∧ |val (v i)| ≤ B) (ht : fin t)
    (hr : Reach (val t) r sat) :
    fin (cubicInnerRegular f1 f2 v t sat lin) ∧
    |val (cubicInnerRegular f1 f2 v t sat lin) -
      cubicInnerRegular false false (fun i => val (v i)) (val t) sat lin| ≤
        1593 * (u * (r ^ 3 * B)) := by
  have hu0 := R.u_nonneg
  have hη0 := R.η_nonneg
  have hB := S.size
  have hr1 := S.reach
  have hr0 : 0 < r := lt_of_lt_of_le one_pos hr1
  have hηu : η ≤ u := by have := S.underRatio; linarith
  have hr3 : 1 ≤ r ^ 3 := one_le_pow₀ hr1
  have e3 : r * (r * (r * B)) = r ^ 3 * B := by ring
  have hB3 : B ≤ r ^ 3 * B := le_mul_of_one_le_left hB hr3
  have hover : 64 * (r ^ 3 * B) ≤ Ω := by have := S.over; rwa [mul_one] at this
  have s1 : Scale u η Ω 1 := ⟨zero_le_one, by linarith, by linarith [S.overRatio]⟩
  have sB : Scale u η Ω B := ⟨hB, S.under, by linarith⟩
  have s3 : Scale u η Ω (r * (r * (r * B))) := by
    rw [e3]
    exact ⟨by positivity, sB.under.trans (by gcongr), hover⟩
  have sr : Scale u η Ω r := ⟨hr0.le, hηu.trans (by nlinarith), S.overReach⟩
  have hdy : ∀ i j : Fin 4, Apx val fin u B (v i -. v j) (val (v i) - val (v j)) 2 2 :=
    fun i j => Apx.sub R hu sB (k := 2) (A := 2) (Apx.exact (hv i).1 (hv i).2)
      (Apx.exact (hv j).1 (hv j).2) (by norm_num) (by norm_num) (by norm_num)
  have hy : ∀ i : Fin 4, Apx val fin u B (v i) (val (v i)) 0 1 := fun i =>
    Apx.exact (hv i).1 (hv i).2
  have two : Pos val fin u ((one : T) +. one) 2 1 := by
    have := Pos.add R hu (m := 0) (k := 1) (pos_one R hu hn) (pos_one R hu hn) le_rfl le_rfl
      (by norm_num) (by norm_num) (by have := s1.over; linarith)
    rwa [one_add_one_eq_two] at this
  have half : ∀ {a : T} {y : K}, Apx val fin u B a y 2 2 →
      Apx val fin u B (a /. ((one : T) +. one)) (y / 2) 111 4 := fun ha =>
    Apx.div R hu sB hB (P := 1) (mul_one _).symm ha two (by norm_num) (by norm_num)
      (by norm_num) (by norm_num) (by norm_num)
  have up : ∀ {a : T} {y : K}, Apx val fin u B a y 111 4 → Apx val fin u B a y 134 8 :=
    fun ha => ha.mono hu0 hB le_rfl (by norm_num) (by norm_num)
  have tex : |val t| ≤ r → Apx val fin u r t (val t) 5 1 := fun h =>
    (Apx.exact ht h).mono hu0 hr0.le le_rfl (by norm_num) le_rfl
  have tsub : |val t - 1| ≤ r → Apx val fin u r (t -. one) (val t - 1) 5 1 := fun h => by
    have := R.sub t one ht hn.one.1 (by rw [hn.one.2]; linarith [S.overReach])
    rw [hn.one.2] at this
    refine ⟨this.1, this.2.trans ?_, by rw [one_mul]; exact h, by norm_num, zero_le_one⟩
    have : u * |val t - 1| ≤ u * r := by gcongr
    have : 0 ≤ u * r := by positivity
    linarith
  have fin_of : ∀ {a : T} {y : K}, Apx val fin u (r * (r * (r * B))) a y 1593 47 →
      fin a ∧ |val a - y| ≤ 1593 * (u * (r ^ 3 * B)) := fun ha => by
    have := ha.err; rw [e3] at this; exact ⟨ha.fin, this⟩
  cases sat with
  | none =>
    have := apx_hermite R hu hn f1 hr1 sB s3 (tex hr) (hy 1) (hdy 2 1) (half (hdy 2 0))
      (up (half (hdy 3 1)))
    rw [← one_add_one_eq_two] at this
    exact fin_of this
  | insideLow =>
    have hk0 := half ((hdy 2 0).neg hn)
    have := apx_hermite R hu hn f1 hr1 sB s3 ((tex hr).neg hn) (hy 1) (hdy 0 1) hk0
      (apx_naturalK1 R hu hn f1 s1 sB (hdy 0 1) hk0)
    rw [← one_add_one_eq_two] at this
    exact fin_of this
  | outsideLow =>
    have hk0 := half ((hdy 2 0).neg hn)
    have hk1 := apx_naturalK1 R hu hn f2 s1 sB (hdy 0 1) hk0
    cases lin with
    | true =>
      have := apx_linExtrap R hu hn f1 hr1 sB sr s3 ((tex hr).neg hn) (hy 0) hk1
      rw [← one_add_one_eq_two] at this
      exact fin_of this
    | false =>
      have := apx_hermite R hu hn f1 hr1 sB s3 ((tex hr).neg hn) (hy 1) (hdy 0 1) hk0 hk1
      rw [← one_add_one_eq_two] at this
      exact fin_of this
  | insideHigh =>
    have hk0 := half (hdy 3 1)
    have := apx_hermite R hu hn f1 hr1 sB s3 (tsub hr) (hy 2) (hdy 3 2) hk0
      (apx_naturalK1 R hu hn f1 s1 sB (hdy 3 2) hk0)
    rw [← one_add_one_eq_two] at this
    exact fin_of this
  | outsideHigh =>
    have hk0 := half (hdy 3 1)
    have hk1 := apx_naturalK1 R hu hn f1 s1 sB (hdy 3 2) hk0
    cases lin with
    | true =>
      have := apx_linExtrap R hu hn f1 hr1 sB sr s3 (tsub hr) (hy 3) hk1
      rw [← one_add_one_eq_two] at this
      exact fin_of this
    | false =>
      have := apx_hermite R hu hn f1 hr1 sB s3 (tsub hr) (hy 2) (hdy 3 2) hk0 hk1
      rw [← one_add_one_eq_two] at this
      exact fin_of this

/-! ### Sensitivity of the exact rule to the position -/

theorem hermiteExact_lip {t s y0 dy k0 k1 B r : K} (hr : 1 ≤ r) (ht : |t| ≤ r) (hs : |s| ≤ r)
    (hd : |dy| ≤ 2 * B) (h0 : |k0| ≤ B) (h1 : |k1| ≤ 5 * B) :
    |hermiteExact t y0 dy k0 k1 - hermiteExact s y0 dy k0 k1| ≤ 57 * r ^ 2 * B * |t - s| := by
  have hB : 0 ≤ B := (abs_nonneg _).trans h0
  have e : hermiteExact t y0 dy k0 k1 - hermiteExact s y0 dy k0 k1 =
      (k0 + (3 * dy - 2 * k0 - k1) * (t + s) + (k0 + k1 - 2 * dy) * (t * t + t * s + s * s)) *
        (t - s) := by
    unfold hermiteExact; ring
  have c2 : |3 * dy - 2 * k0 - k1| ≤ 13 * B := by
    have hd := abs_le.1 hd
    have h0 := abs_le.1 h0
    have h1 := abs_le.1 h1
    rw [abs_le]; constructor <;> linarith
  have c3 : |k0 + k1 - 2 * dy| ≤ 10 * B := by
    have hd := abs_le.1 hd
    have h0 := abs_le.1 h0
    have h1 := abs_le.1 h1
    rw [abs_le]; constructor <;> linarith
  have m1 : |t + s| ≤ 2 * r := (abs_add_le _ _).trans (by linarith)
  have sqb : ∀ {a b : K}, |a| ≤ r → |b| ≤ r → |a * b| ≤ r ^ 2 := fun ha hb => by
    rw [abs_mul, sq]; exact mul_le_mul ha hb (abs_nonneg _) (by linarith)
  have m2 : |t * t + t * s + s * s| ≤ 3 * r ^ 2 := by
    have := abs_add_le (t * t + t * s) (s * s)
    have := abs_add_le (t * t) (t * s)
    have := sqb ht ht
    have := sqb ht hs
    have := sqb hs hs
    linarith
  rw [e, abs_mul]
  refine mul_le_mul_of_nonneg_right ?_ (abs_nonneg _)
  have a1 := abs_add_le (k0 + (3 * dy - 2 * k0 - k1) * (t + s))
    ((k0 + k1 - 2 * dy) * (t * t + t * s + s * s))
  have a2 := abs_add_le k0 ((3 * dy - 2 * k0 - k1) * (t + s))
  have p1 : |(3 * dy - 2 * k0 - k1) * (t + s)| ≤ 13 * B * (2 * r) := by
    rw [abs_mul]; exact mul_le_mul c2 m1 (abs_nonneg _) (by positivity)
  have p2 : |(k0 + k1 - 2 * dy) * (t * t + t * s + s * s)| ≤ 10 * B * (3 * r ^ 2) := by
    rw [abs_mul]; exact mul_le_mul c3 m2 (abs_nonneg _) (by positivity)
  have q1 : B * r ≤ B * r ^ 2 := by
    rw [sq]; exact mul_le_mul_of_nonneg_left (le_mul_of_one_le_left (by linarith) hr) hB
  have q0 : B ≤ B * r := le_mul_of_one_le_right hB hr
  nlinarith

theorem innerRegular_lip {v : Fin 4 → K} {t s B r : K} (hr : 1 ≤ r) {sat : Saturation} {lin : Bool}
    (hv : ∀ i, |v i| ≤ B) (ht : Reach t r sat) (hs : Reach s r sat) :
    |cubicInnerRegular false false v t sat lin - cubicInnerRegular false false v s sat lin| ≤
      57 * r ^ 2 * B * |t - s| := by
  have hB : 0 ≤ B := (abs_nonneg _).trans (hv 0)
  have d : ∀ i j, |v i - v j| ≤ 2 * B := fun i j => by
    have := abs_sub (v i) (v j); linarith [hv i, hv j]
  have hf : ∀ i j, |(v i - v j) / (1 + 1)| ≤ B := fun i j => by
    rw [one_add_one_eq_two, abs_div, abs_of_pos (by norm_num : (0 : K) < 2), div_le_iff₀ (by norm_num)]
    linarith [d i j]
  have hfn : ∀ i j, |-(v i - v j) / (1 + 1)| ≤ B := fun i j => by
    rw [neg_div, abs_neg]; exact hf i j
  have nat : ∀ {dy k0 : K}, |dy| ≤ 2 * B → |k0| ≤ B → |(1 + 1) * dy - k0| ≤ 5 * B := fun h1 h2 => by
    have h1 := abs_le.1 h1
    have h2 := abs_le.1 h2
    rw [abs_le]; constructor <;> linarith
  have neg_sub' : |(-t) - (-s)| = |t - s| := by rw [neg_sub_neg, abs_sub_comm]
  have ntr : ∀ {a : K}, |a| ≤ r → |-a| ≤ r := fun h => by rwa [abs_neg]
  have linB : ∀ {y k a b : K}, |k| ≤ 5 * B →
      |(y + k * (a - 1)) - (y + k * (b - 1))| ≤ 57 * r ^ 2 * B * |a - b| := fun {y k a b} hk => by
    rw [show (y + k * (a - 1)) - (y + k * (b - 1)) = k * (a - b) by ring, abs_mul]
    refine mul_le_mul_of_nonneg_right (hk.trans ?_) (abs_nonneg _)
    have : 1 ≤ r ^ 2 := one_le_pow₀ hr
    nlinarith
  cases sat with
  | none =>
    exact hermiteExact_lip hr ht hs (d 2 1) (hf 2 0) ((hf 3 1).trans (by linarith))
  | insideLow =>
    have := hermiteExact_lip (y0 := v 1) hr (ntr ht) (ntr hs) (d 0 1) (hfn 2 0)
      (nat (d 0 1) (hfn 2 0))
    rw [neg_sub'] at this
    exact this
  | outsideLow =>
    cases lin with
    | true =>
      have := linB (y := v 0) (a := -t) (b := -s) (nat (d 0 1) (hfn 2 0))
      rw [neg_sub'] at this
      exact this
    | false =>
      have := hermiteExact_lip (y0 := v 1) hr (ntr ht) (ntr hs) (d 0 1) (hfn 2 0)
        (nat (d 0 1) (hfn 2 0))
      rw [neg_sub'] at this
      exact this
  | insideHigh =>
    have := hermiteExact_lip (y0 := v 2) hr ht hs (d 3 2) (hf 3 1) (nat (d 3 2) (hf 3 1))
    rw [sub_sub_sub_cancel_right] at this
    exact this
  | outsideHigh =>
    cases lin with
    | true =>
      have := linB (y := v 3) (a := t - 1) (b := s - 1) (nat (d 3 2) (hf 3 1))
      rw [sub_sub_sub_cancel_right] at this
      exact this
    | false =>
      have := hermiteExact_lip (y0 := v 2) hr ht hs (d 3 2) (hf 3 1) (nat (d 3 2) (hf 3 1))
      rw [sub_sub_sub_cancel_right] at this
      exact this

/-! ### Pieces -/

/-- The rule of the raw cell `z`, at position `q` (in units of the step, from the first node). -/
def regPiece (dim : Nat) (lin : Bool) (f : Nat → K) (z : Int) (q : K) : K :=
  cubicInnerRegular false false (fun p => f (clampIdx (z - 1) (dim - 4) + p.val))
    (q - ((clampIdx (z - 1) (dim - 4) + 1 : Nat) : K)) (satRegular dim z) lin

theorem hermite_zero (b : Bool) (y0 dy k0 k1 : K) : hermite b 0 y0 dy k0 k1 = y0 := by
  cases b
  · show y0 + 0 * _ = y0; ring
  · show _ * 0 + y0 = y0; ring

theorem hermite_one (y0 dy k0 k1 : K) : hermite false 1 y0 dy k0 k1 = y0 + dy := by
  show y0 + 1 * (dy + (k0 - dy) + 1 * (-k1 + dy - (k0 - dy + (k0 - dy)) +
    1 * (k0 - dy - (-k1 + dy)))) = _
  ring

theorem linExtrap_one (y1 k1 : K) : linExtrap false y1 k1 1 = y1 := by
  show y1 + k1 * (1 - 1) = y1
  ring

/-- Adjacent pieces meet at the nodes. -/
theorem regPiece_node {dim : Nat} (h4 : 4 ≤ dim) (lin : Bool) (f : Nat → K) {m : Nat} (hm : m < dim) :
    regPiece dim lin f m m = f m ∧ regPiece dim lin f ((m : Int) - 1) m = f m := by
  have hsub : ∀ a b : K, a -. b = a - b := fun _ _ => rfl
  have hneg : ∀ a : K, -. a = -a := fun _ => rfl
  have hone : (one : K) = 1 := rfl
  constructor
  · unfold regPiece
    by_cases h0 : m = 0
    · subst h0
      have hs : satRegular dim ((0 : Nat) : Int) = .insideLow := by simp [satRegular]
      have hc : clampIdx (((0 : Nat) : Int) - 1) (dim - 4) = 0 := by unfold clampIdx; omega
      rw [hs, hc]
      simp only [cubicInnerRegular, hsub, hneg]
      have : -(((0 : Nat) : K) - ((0 + 1 : Nat) : K)) = 1 := by simp
      rw [this, hermite_one]
      show f (0 + 1) + (f (0 + 0) - f (0 + 1)) = f 0
      ring_nf
    by_cases h1 : m = dim - 1
    · have hs : satRegular dim (m : Int) = .outsideHigh := by
        unfold satRegular
        rw [if_neg (by omega), if_neg (by omega), if_pos (by omega)]
      have hc : clampIdx ((m : Int) - 1) (dim - 4) = m - 3 := by unfold clampIdx; omega
      rw [hs, hc]
      have e : (m : K) - ((m - 3 + 1 : Nat) : K) - 1 = 1 := by
        obtain ⟨j, rfl⟩ : ∃ j, m = j + 3 := ⟨m - 3, by omega⟩
        push_cast [Nat.add_sub_cancel]; ring
      have e3 : m - 3 + 3 = m := by omega
      simp only [cubicInnerRegular, hsub, hone, e]
      cases lin
      · simp only [Bool.false_eq_true, if_false, hermite_one]
        show f (m - 3 + 2) + (f (m - 3 + 3) - f (m - 3 + 2)) = f m
        rw [e3]; ring
      · simp only [if_true, linExtrap_one]
        show f (m - 3 + 3) = f m
        rw [e3]
    by_cases h2 : m = dim - 2
    · have hs : satRegular dim (m : Int) = .insideHigh := by
        unfold satRegular
        rw [if_neg (by omega), if_neg (by omega), if_neg (by omega), if_pos (by omega)]
      have hc : clampIdx ((m : Int) - 1) (dim - 4) = m - 2 := by unfold clampIdx; omega
      rw [hs, hc]
      have e : (m : K) - ((m - 2 + 1 : Nat) : K) - 1 = 0 := by
        obtain ⟨j, rfl⟩ : ∃ j, m = j + 2 := ⟨m - 2, by omega⟩
        push_cast [Nat.add_sub_cancel]; ring
      simp only [cubicInnerRegular, hsub, hone, e, hermite_zero]
      show f (m - 2 + 2) = f m
      rw [show m - 2 + 2 = m by omega]
    · have hs : satRegular dim (m : Int) = .none := by
        unfold satRegular
        rw [if_neg (by omega), if_neg (by omega), if_neg (by omega), if_neg (by omega)]
      have hc : clampIdx ((m : Int) - 1) (dim - 4) = m - 1 := by unfold clampIdx; omega
      rw [hs, hc]
      have e : (m : K) - ((m - 1 + 1 : Nat) : K) = 0 := by
        rw [show m - 1 + 1 = m by omega]; ring
      simp only [cubicInnerRegular, hsub, e, hermite_zero]
      show f (m - 1 + 1) = f m
      rw [show m - 1 + 1 = m by omega]
  · unfold regPiece
    by_cases h0 : m = 0
    · subst h0
      have hs : satRegular dim (((0 : Nat) : Int) - 1) = .outsideLow := by simp [satRegular]
      have hc : clampIdx (((0 : Nat) : Int) - 1 - 1) (dim - 4) = 0 := by unfold clampIdx; omega
      rw [hs, hc]
      have e : -(((0 : Nat) : K) - ((0 + 1 : Nat) : K)) = 1 := by simp
      simp only [cubicInnerRegular, hsub, hneg, e]
      cases lin
      · simp only [Bool.false_eq_true, if_false, hermite_one]
        show f (0 + 1) + (f (0 + 0) - f (0 + 1)) = f 0
        ring_nf
      · simp only [if_true, linExtrap_one]
        rfl
    by_cases h1 : m = 1
    · subst h1
      have hs : satRegular dim (((1 : Nat) : Int) - 1) = .insideLow := by simp [satRegular]
      have hc : clampIdx (((1 : Nat) : Int) - 1 - 1) (dim - 4) = 0 := by unfold clampIdx; omega
      rw [hs, hc]
      have e : -(((1 : Nat) : K) - ((0 + 1 : Nat) : K)) = 0 := by simp
      simp only [cubicInnerRegular, hsub, hneg, e, hermite_zero]
      rfl
    by_cases h2 : m = dim - 1
    · have hs : satRegular dim ((m : Int) - 1) = .insideHigh := by
        unfold satRegular
        rw [if_neg (by omega), if_neg (by omega), if_neg (by omega), if_pos (by omega)]
      have hc : clampIdx ((m : Int) - 1 - 1) (dim - 4) = m - 3 := by unfold clampIdx; omega
      rw [hs, hc]
      have e : (m : K) - ((m - 3 + 1 : Nat) : K) - 1 = 1 := by
        obtain ⟨j, rfl⟩ : ∃ j, m = j + 3 := ⟨m - 3, by omega⟩
        push_cast [Nat.add_sub_cancel]; ring
      simp only [cubicInnerRegular, hsub, hone, e, hermite_one]
      show f (m - 3 + 2) + (f (m - 3 + 3) - f (m - 3 + 2)) = f m
      rw [show m - 3 + 3 = m by omega]; ring
    · have hs : satRegular dim ((m : Int) - 1) = .none := by
        unfold satRegular
        rw [if_neg (by omega), if_neg (by omega), if_neg (by omega), if_neg (by omega)]
      have hc : clampIdx ((m : Int) - 1 - 1) (dim - 4) = m - 2 := by unfold clampIdx; omega
      rw [hs, hc]
      have e : (m : K) - ((m - 2 + 1 : Nat) : K) = 1 := by
        obtain ⟨j, rfl⟩ : ∃ j, m = j + 2 := ⟨m - 2, by omega⟩
        push_cast [Nat.add_sub_cancel]; ring
      simp only [cubicInnerRegular, hsub, e, hermite_one]
      show f (m - 2 + 1) + (f (m - 2 + 2) - f (m - 2 + 1)) = f m
      rw [show m - 2 + 2 = m by omega]; ring

/-- Positions near the raw cell `z` and near the range are within reach. -/
theorem reach_of_near {dim : Nat} (h4 : 4 ≤ dim) {z : Int} {q ε : K}
    (h1 : (z : K) - ε ≤ q) (h2 : q ≤ z + 1 + ε) (h3 : -ε ≤ q)
    (h5 : q ≤ ((dim - 1 : Nat) : K) + ε) :
    Reach (q - ((clampIdx (z - 1) (dim - 4) + 1 : Nat) : K)) (1 + ε) (satRegular dim z) := by
  have hd : ((dim - 1 : Nat) : K) = ((dim - 3 : Nat) : K) + 2 := by
    rw [show dim - 1 = dim - 3 + 2 by omega]; push_cast; rfl
  unfold satRegular
  by_cases a : z ≤ 0
  · have hc : clampIdx (z - 1) (dim - 4) = 0 := by unfold clampIdx; omega
    have hz : (z : K) ≤ 0 := by exact_mod_cast a
    have : |q - ((clampIdx (z - 1) (dim - 4) + 1 : Nat) : K)| ≤ 1 + ε := by
      rw [hc, abs_le]; push_cast; constructor <;> linarith
    by_cases b : z < 0
    · rw [if_pos b]; exact this
    · rw [if_neg b, if_pos (by omega)]; exact this
  rw [if_neg (by omega), if_neg (by omega)]
  by_cases b : (dim : Int) - 2 ≤ z
  · have hc : clampIdx (z - 1) (dim - 4) + 1 = dim - 3 := by unfold clampIdx; omega
    have hz : ((dim - 3 : Nat) : K) + 1 ≤ z := by
      have : ((dim - 3 : Nat) : Int) + 1 ≤ z := by omega
      exact_mod_cast this
    have : |q - ((clampIdx (z - 1) (dim - 4) + 1 : Nat) : K) - 1| ≤ 1 + ε := by
      rw [hc, abs_le]; constructor <;> linarith
    by_cases c : (dim : Int) - 2 < z
    · rw [if_pos c]; exact this
    · rw [if_neg c, if_pos (by omega)]; exact this
  · rw [if_neg (by omega), if_neg (by omega)]
    have hc : ((clampIdx (z - 1) (dim - 4) + 1 : Nat) : Int) = z := by unfold clampIdx; omega
    have hc' : ((clampIdx (z - 1) (dim - 4) + 1 : Nat) : K) = z := by exact_mod_cast congrArg (Int.cast : Int → K) hc
    show |_| ≤ _
    rw [hc', abs_le]; constructor <;> linarith

/-- Evaluating the piece of a slightly wrong cell at a slightly wrong position. -/
theorem regPiece_close {dim : Nat} (h4 : 4 ≤ dim) (lin : Bool) {f : Nat → K} {B : K}
    (hf : ∀ i < dim, |f i| ≤ B) {q q' p ω δ : K} (hq0 : 0 ≤ q) (hq1 : q ≤ ((dim - 1 : Nat) : K))
    (hq' : |q' - q| ≤ δ) (hp : |p - q| ≤ ω) (hδ : δ < 1) :
    |regPiece dim lin f ⌊q'⌋ p - regPiece dim lin f ⌊q⌋ q| ≤
      57 * (1 + (ω + δ)) ^ 2 * B * (ω + 2 * δ) := by
  have hω0 : 0 ≤ ω := (abs_nonneg _).trans hp
  have hδ0 : 0 ≤ δ := (abs_nonneg _).trans hq'
  have hB : 0 ≤ B := (abs_nonneg _).trans (hf 0 (by omega))
  have hv : ∀ (z : Int) (i : Fin 4), |f (clampIdx (z - 1) (dim - 4) + i.val)| ≤ B := fun z i =>
    hf _ (by have := clampIdx_le (z - 1) (dim - 4); have := i.isLt; omega)
  have hr : (1 : K) ≤ 1 + (ω + δ) := by linarith
  have hL : 0 ≤ 57 * (1 + (ω + δ)) ^ 2 * B := by positivity
  have lip : ∀ (z : Int) {a b : K}, (z : K) - (ω + δ) ≤ a → a ≤ z + 1 + (ω + δ) → -(ω + δ) ≤ a →
      a ≤ ((dim - 1 : Nat) : K) + (ω + δ) → (z : K) - (ω + δ) ≤ b → b ≤ z + 1 + (ω + δ) →
      -(ω + δ) ≤ b → b ≤ ((dim - 1 : Nat) : K) + (ω + δ) →
      |regPiece dim lin f z a - regPiece dim lin f z b| ≤
        57 * (1 + (ω + δ)) ^ 2 * B * |a - b| := by
    intro z a b a1 a2 a3 a4 b1 b2 b3 b4
    have := innerRegular_lip (v := fun p : Fin 4 => f (clampIdx (z - 1) (dim - 4) + p.val)) (B := B)
      (lin := lin) hr (hv z) (reach_of_near h4 a1 a2 a3 a4)
      (reach_of_near h4 b1 b2 b3 b4)
    rw [sub_sub_sub_cancel_right] at this
    exact this
  have hq'' := abs_le.1 hq'
  have hp' := abs_le.1 hp
  have fq := Int.floor_le q
  have lq := Int.lt_floor_add_one q
  have fq' := Int.floor_le q'
  have lq' := Int.lt_floor_add_one q'
  have hmul : ∀ {a b : K}, |a| ≤ b → 57 * (1 + (ω + δ)) ^ 2 * B * |a| ≤
      57 * (1 + (ω + δ)) ^ 2 * B * b := fun h => mul_le_mul_of_nonneg_left h hL
  have z0 : 0 ≤ ⌊q⌋ := Int.floor_nonneg.2 hq0
  have z1 : ⌊q⌋ ≤ (dim - 1 : Nat) := by
    have : (⌊q⌋ : K) ≤ ((dim - 1 : Nat) : K) := fq.trans hq1
    exact_mod_cast this
  rcases lt_trichotomy ⌊q'⌋ ⌊q⌋ with hz | hz | hz
  · -- the cell below
    have hz' : ⌊q'⌋ = ⌊q⌋ - 1 := by
      have : (⌊q⌋ : K) < ⌊q'⌋ + 2 := by linarith
      have : ⌊q⌋ < ⌊q'⌋ + 2 := by exact_mod_cast this
      omega
    obtain ⟨m, hm⟩ := Int.eq_ofNat_of_zero_le z0
    have hmd : m < dim := by omega
    have hmK : (⌊q⌋ : K) = m := by rw [hm]; simp
    have hz'K : (⌊q'⌋ : K) = m - 1 := by rw [hz']; push_cast; rw [hmK]
    have hj := regPiece_node h4 lin f hmd
    have e1 : regPiece dim lin f ⌊q'⌋ m = regPiece dim lin f ⌊q⌋ m := by
      rw [hz', hm]; exact hj.2.trans hj.1.symm
    have hmq : (m : K) ≤ q := by rw [← hmK]; exact fq
    have hqm : q' < m := by rw [hz'K] at lq'; linarith
    have l1 := lip ⌊q'⌋ (a := p) (b := m) (by rw [hz'K]; linarith) (by rw [hz'K]; linarith)
      (by linarith) (by linarith) (by rw [hz'K]; linarith) (by rw [hz'K]; linarith)
      (by linarith [Nat.cast_nonneg (α := K) m]) (by linarith)
    have l2 := lip ⌊q⌋ (a := m) (b := q) (by rw [hmK]; linarith) (by rw [hmK]; linarith)
      (by linarith [Nat.cast_nonneg (α := K) m]) (by linarith) (by rw [hmK]; linarith)
      (by rw [hmK]; rw [hmK] at lq; linarith) (by linarith) (by linarith)
    have b1 : |p - (m : K)| ≤ ω + δ := by rw [abs_le]; constructor <;> linarith
    have b2 : |(m : K) - q| ≤ δ := by rw [abs_le]; constructor <;> linarith
    have := abs_sub_le (regPiece dim lin f ⌊q'⌋ p) (regPiece dim lin f ⌊q'⌋ m)
      (regPiece dim lin f ⌊q⌋ q)
    rw [e1] at l1 this
    have c1 := hmul b1
    have c2 := hmul b2
    rw [show 57 * (1 + (ω + δ)) ^ 2 * B * (ω + 2 * δ) = 57 * (1 + (ω + δ)) ^ 2 * B * (ω + δ) +
      57 * (1 + (ω + δ)) ^ 2 * B * δ by ring]
    linarith
  · -- the right cell
    rw [hz] at fq' lq' ⊢
    have l1 := lip ⌊q⌋ (a := p) (b := q) (by linarith) (by linarith) (by linarith) (by linarith)
      (by linarith) (by linarith) (by linarith) (by linarith)
    exact l1.trans (hmul (hp.trans (by linarith)))
  · -- the cell above
    have hz' : ⌊q'⌋ = ⌊q⌋ + 1 := by
      have : (⌊q'⌋ : K) < ⌊q⌋ + 2 := by linarith
      have : ⌊q'⌋ < ⌊q⌋ + 2 := by exact_mod_cast this
      omega
    obtain ⟨m, hm⟩ := Int.eq_ofNat_of_zero_le z0
    have hmK : (⌊q⌋ : K) = m := by rw [hm]; simp
    have hz'K : (⌊q'⌋ : K) = m + 1 := by rw [hz']; push_cast; rw [hmK]
    have e2 : ((m + 1 : Nat) : K) = m + 1 := by push_cast; rfl
    by_cases hmd : m + 1 < dim
    · have hj := regPiece_node h4 lin f hmd
      have e1 : regPiece dim lin f ⌊q'⌋ ((m + 1 : Nat) : K) =
          regPiece dim lin f ⌊q⌋ ((m + 1 : Nat) : K) := by
        have h2 := hj.2
        rw [show (((m + 1 : Nat) : Int) - 1) = m by push_cast; ring] at h2
        rw [hz', hm]
        exact (by exact_mod_cast hj.1 : regPiece dim lin f (Int.ofNat m + 1) _ = f (m + 1)).trans
          h2.symm
      rw [hz'K] at fq' lq'
      rw [hmK] at fq lq
      have l1 := lip ⌊q'⌋ (a := p) (b := ((m + 1 : Nat) : K)) (by rw [hz'K]; linarith)
        (by rw [hz'K]; linarith) (by linarith) (by linarith) (by rw [hz'K]; linarith)
        (by rw [hz'K]; linarith) (by linarith) (by
          have : ((m + 1 : Nat) : K) ≤ ((dim - 1 : Nat) : K) := by exact_mod_cast (by omega)
          linarith)
      have l2 := lip ⌊q⌋ (a := ((m + 1 : Nat) : K)) (b := q) (by rw [hmK]; linarith)
        (by rw [hmK]; linarith) (by linarith) (by
          have : ((m + 1 : Nat) : K) ≤ ((dim - 1 : Nat) : K) := by exact_mod_cast (by omega)
          linarith) (by rw [hmK]; linarith) (by rw [hmK]; linarith) (by linarith) (by linarith)
      have b1 : |p - ((m + 1 : Nat) : K)| ≤ ω + δ := by rw [e2, abs_le]; constructor <;> linarith
      have b2 : |((m + 1 : Nat) : K) - q| ≤ δ := by rw [e2, abs_le]; constructor <;> linarith
      have := abs_sub_le (regPiece dim lin f ⌊q'⌋ p) (regPiece dim lin f ⌊q'⌋ ((m + 1 : Nat) : K))
        (regPiece dim lin f ⌊q⌋ q)
      rw [e1] at l1 this
      have c1 := hmul b1
      have c2 := hmul b2
      rw [show 57 * (1 + (ω + δ)) ^ 2 * B * (ω + 2 * δ) = 57 * (1 + (ω + δ)) ^ 2 * B * (ω + δ) +
        57 * (1 + (ω + δ)) ^ 2 * B * δ by ring]
      linarith
    · -- both beyond the last node
      have hs : ∀ a, regPiece dim lin f ⌊q'⌋ a = regPiece dim lin f ⌊q⌋ a := by
        intro a
        have c1 : clampIdx (⌊q'⌋ - 1) (dim - 4) = clampIdx (⌊q⌋ - 1) (dim - 4) := by
          unfold clampIdx; omega
        have c2 : satRegular dim ⌊q'⌋ = satRegular dim ⌊q⌋ := by
          unfold satRegular
          rw [if_neg (by omega), if_neg (by omega), if_pos (by omega), if_neg (by omega),
            if_neg (by omega), if_pos (by omega)]
        unfold regPiece
        rw [c1, c2]
      rw [hs]
      have l1 := lip ⌊q⌋ (a := p) (b := q) (by linarith) (by linarith) (by linarith) (by linarith)
        (by linarith) (by linarith) (by linarith) (by linarith)
      exact l1.trans (hmul (hp.trans (by linarith)))

theorem Reach.abs_le {t r : K} {sat : Saturation} (h : Reach t r sat) : |t| ≤ r + 1 := by
  have hi : |t - 1| ≤ r → |t| ≤ r + 1 := fun h => by
    have := abs_add_le (t - 1) 1
    rw [sub_add_cancel, abs_one] at this
    linarith
  have lo : |t| ≤ r → |t| ≤ r + 1 := fun h => by linarith
  cases sat
  exacts [lo h, lo h, lo h, hi h, hi h]

/-- Footprint, saturation flag and relative position computed on a regular axis, for an observation
in the grid range: footprint and flag are those of a position `q'` that differs from that of the
observation by at most `positionError`, and the relative position is accurate with respect to
them. -/
theorem rounds_cubic_axis (h : Rounds val fin u η Ω) {n : Nat} (hwh : ExactWhole val fin n)
    {dim : Nat} (hdn : dim ≤ n) (h4 : 4 ≤ dim) {s st x : T} (hs : fin s) (hst : fin st)
    (hx : fin x) (hpos : 0 < val st) {A : K} (hA0 : |val s| ≤ A)
    (hA1 : |val s + val st * ((dim - 1 : Nat) : K)| ≤ A)
    (hin : InRange dim (fun i : Nat => val s + val st * (i : K)) (val x))
    (hb : AxisInBounds u η Ω A 2 (val st) (val x) dim)
    (hδ1 : positionError u η ((dim - 1 : Nat) : K) < 1) :
    ∃ (q' : K) (t : T), cubRegAxis dim s st x =
        .ok (clampIdx (⌊q'⌋ - 1) (dim - 4), satRegular dim ⌊q'⌋, t) ∧
      |q' - (val x - val s) / val st| ≤ positionError u η ((dim - 1 : Nat) : K) ∧ fin t ∧
      |val t + ((clampIdx (⌊q'⌋ - 1) (dim - 4) + 1 : Nat) : K) - (val x - val s) / val st| ≤
        regularWeightError u η A (val st) 3 ∧
      0 ≤ (val x - val s) / val st ∧ (val x - val s) / val st ≤ ((dim - 1 : Nat) : K) ∧
      isizeMin < ⌊(val x - val s) / val st⌋ ∧ ⌊(val x - val s) / val st⌋ ≤ isizeMax := by
  have hu := h.u_nonneg
  have hη := h.η_nonneg
  have hA : 0 ≤ A := (abs_nonneg _).trans hA0
  have hτ := nodeError_nonneg hu hη hA
  have hτs : 0 ≤ nodeError u η A / val st := div_nonneg hτ hpos.le
  have hd0 : (0 : K) ≤ ((dim - 1 : Nat) : K) := Nat.cast_nonneg _
  -- the exact position
  set q := (val x - val s) / val st with hq
  have hqx : val x = val s + val st * q := by rw [hq, mul_div_cancel₀ _ hpos.ne']; ring
  have hq1 : 0 ≤ q := by
    have := hin.1
    simp only [Nat.cast_zero, mul_zero, add_zero] at this
    exact div_nonneg (by linarith) hpos.le
  have hq2 : q ≤ ((dim - 1 : Nat) : K) := by
    have := hin.2
    simp only at this
    rw [hqx] at this
    exact le_of_mul_le_mul_left (by linarith) hpos
  have hδ0 : 0 ≤ positionError u η ((dim - 1 : Nat) : K) := positionError_nonneg hu hη hd0
  set δ := positionError u η ((dim - 1 : Nat) : K) with hδ
  have hδ2 : 0 ≤ positionError u η (((dim - 1 : Nat) : K) + 2) :=
    positionError_nonneg hu hη (by linarith)
  have hix := hb.index
  -- the computed position
  have hpq := rounds_quot h (b := val s) (τ := 0) (R := ((dim - 1 : Nat) : K)) hx hs hst hpos
    (by simp) (by have := abs_sub (val x) (val s); have := hb.obs; linarith)
    (by rw [← hq, abs_of_nonneg hq1]; exact hq2)
    (by have := hb.position; rw [zero_div, add_zero]; nlinarith)
  have hpe : |val ((x -. s) /. st) - q| ≤ δ := by
    have := hpq.2
    rw [zero_div, mul_zero, add_zero] at this
    rw [hδ]; exact this
  have hraw' : ∀ z, isizeMin ≤ z → z ≤ isizeMax → ⌊val ((x -. s) /. st)⌋ = z →
      rawCell s st x = some z := fun z h1 h2 h3 => by
    subst h3
    exact hwh.toIsize _ hpq.1 h1 h2
  set q' := val ((x -. s) /. st) with hq'
  have hbp := abs_le.1 hpe
  have hmin : -1 ≤ ⌊q'⌋ := by
    rw [Int.le_floor]
    push_cast
    linarith
  have hfl : ∀ p : K, p ≤ ((dim - 1 : Nat) : K) + 1 → ⌊p⌋ ≤ isizeMax := fun p hp => by
    have h1 := Int.floor_le p
    have h2 : (⌊p⌋ : K) ≤ (isizeMax : Int) := by
      simp only [isizeMax]
      push_cast
      linarith
    exact_mod_cast h2
  have hraw : rawCell s st x = some ⌊q'⌋ :=
    hraw' _ (by simp only [isizeMin]; omega) (hfl q' (by linarith)) rfl
  have fq' := Int.floor_le q'
  have lq' := Int.lt_floor_add_one q'
  have hreach := (reach_of_near h4 (z := ⌊q'⌋) (q := q) (ε := δ) (by linarith) (by linarith)
    (by linarith) (by linarith)).abs_le
  have hcb := clampIdx_le (⌊q'⌋ - 1) (dim - 4)
  obtain ⟨f, hf1, hf2, hf3⟩ := hwh.ofUsize (clampIdx (⌊q'⌋ - 1) (dim - 4) + 1) (by omega)
  set c := clampIdx (⌊q'⌋ - 1) (dim - 4) + 1 with hc
  have hcK : (c : K) ≤ ((dim - 1 : Nat) : K) := by exact_mod_cast (by omega : c ≤ dim - 1)
  have hc0 : (0 : K) ≤ c := Nat.cast_nonneg c
  have hAc : |val s + val st * (c : K)| ≤ A := by
    have h1 := abs_le.1 hA0
    have h3 := abs_le.1 hA1
    have h4 : val st * (c : K) ≤ val st * ((dim - 1 : Nat) : K) := by gcongr
    have h5 : 0 ≤ val st * (c : K) := by positivity
    rw [_root_.abs_le]
    constructor <;> linarith
  have hnode := rounds_node h false hs hst hf2 hf3 hA0 hAc hb.node
  simp only [Bool.false_eq_true, if_false] at hnode
  have hxn : (val x - (val s + val st * (c : K))) / val st = q - c := by
    rw [hqx]; field_simp; ring
  have hw := rounds_quot h (b := val s + val st * (c : K)) (τ := nodeError u η A) (R := 3) hx hnode.1
    hst hpos hnode.2 (by have := abs_sub (val x) (val s + val st * (c : K)); have := hb.obs; linarith)
    (by rw [hxn]; linarith) (by have := hb.weight; nlinarith)
  rw [hxn] at hw
  refine ⟨q', _, ?_, hpe, hw.1, ?_, hq1, hq2, ?_, hfl q (by linarith)⟩
  · unfold cubRegAxis
    rw [hraw]
    simp only
    rw [if_neg (by simp only [isizeMin]; omega), ← hc, hf1]
  · refine le_of_eq_of_le (congrArg _ ?_) hw.2
    ring
  · have := Int.floor_nonneg.2 hq1
    simp only [isizeMin]; omega

end

end Interpn
