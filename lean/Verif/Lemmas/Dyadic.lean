import Verif.Spec.Dyadic
import Verif.Lemmas.Ieee
import Verif.Lemmas.Eval
import Verif.Lemmas.IeeeConst
import Mathlib.Tactic.Ring
import Mathlib.Tactic.Linarith
import Mathlib.Tactic.FieldSimp
import Mathlib.Tactic.Positivity

/-! Floating-point operations on fixed-point numbers are exact as long as the results have few
digits. -/

set_option autoImplicit false

namespace Interpn
open FloatOps Ieee

theorem Multiple.of_le {e e' : Int} {q : ℚ} (h : Multiple e q) (he : e' ≤ e) : Multiple e' q := by
  obtain ⟨z, rfl⟩ := h
  obtain ⟨n, hn⟩ : ∃ n : Nat, e = e' + n := ⟨(e - e').toNat, by omega⟩
  refine ⟨z * 2 ^ n, ?_⟩
  rw [hn, zpow_add₀ (by norm_num), zpow_natCast]
  push_cast; ring

theorem Multiple.add {e : Int} {a b : ℚ} (ha : Multiple e a) (hb : Multiple e b) :
    Multiple e (a + b) := by
  obtain ⟨z, rfl⟩ := ha
  obtain ⟨w, rfl⟩ := hb
  exact ⟨z + w, by push_cast; ring⟩

theorem Multiple.sub {e : Int} {a b : ℚ} (ha : Multiple e a) (hb : Multiple e b) :
    Multiple e (a - b) := by
  obtain ⟨z, rfl⟩ := ha
  obtain ⟨w, rfl⟩ := hb
  exact ⟨z - w, by push_cast; ring⟩

theorem Multiple.mul {e e' : Int} {a b : ℚ} (ha : Multiple e a) (hb : Multiple e' b) :
    Multiple (e + e') (a * b) := by
  obtain ⟨z, rfl⟩ := ha
  obtain ⟨w, rfl⟩ := hb
  exact ⟨z * w, by rw [zpow_add₀ (by norm_num)]; push_cast; ring⟩

theorem Multiple.div_pow {e e' : Int} {a : ℚ} (ha : Multiple e a) : Multiple (e - e') (a / 2 ^ e') := by
  obtain ⟨z, rfl⟩ := ha
  exact ⟨z, by rw [zpow_sub₀ (by norm_num)]; ring⟩

theorem multiple_int (z : Int) : Multiple 0 (z : ℚ) := ⟨z, by simp⟩

variable {f : Format}

theorem Room.mono {e e' : Int} {B B' : ℚ} (h : Room f e B) (he : e ≤ e') (hB : B' ≤ B) :
    Room f e' B' := by
  refine ⟨h.fine.trans he, hB.trans (h.digits.trans ?_), hB.trans h.range⟩
  have : (2 : ℚ) ^ e ≤ 2 ^ e' := zpow_le_zpow_right₀ (by norm_num) he
  gcongr

theorem omega_ge (f : Format) : (2 : ℚ) ^ f.emax ≤ f.omega := by
  have hp := f.two_le_p
  have he := f.p_le_emax
  unfold Format.omega
  have h1 : (2 : ℚ) ^ f.emax = 2 ^ (f.p - 1) * 2 ^ ((f.emax : Int) - (f.p - 1)) := by
    rw [← zpow_natCast, ← zpow_natCast, ← zpow_add₀ (by norm_num)]
    congr 1
    omega
  have h2 : (2 : ℚ) ^ f.p = 2 * 2 ^ (f.p - 1) := by
    rw [← pow_succ']; congr 1; omega
  have h3 : (1 : ℚ) ≤ 2 ^ (f.p - 1) := one_le_pow₀ (by norm_num)
  rw [h1, h2]
  exact mul_le_mul_of_nonneg_right (by linarith) (zpow_nonneg (by norm_num) _)

/-- Powers of two as bounds. -/
theorem room_pow {e : Int} {n : Nat} (h1 : f.emin - (f.p - 1 : Int) ≤ e) (h2 : n ≤ f.p)
    (h3 : e + n ≤ f.emax) : Room f e (2 ^ (e + n)) := by
  refine ⟨h1, ?_, ?_⟩
  · rw [zpow_add₀ (by norm_num), mul_comm, zpow_natCast]
    exact mul_le_mul_of_nonneg_right (pow_le_pow_right₀ (by norm_num) h2)
      (zpow_nonneg (by norm_num) _)
  · refine le_trans ?_ (omega_ge f)
    rw [← zpow_natCast]
    exact zpow_le_zpow_right₀ (by norm_num) h3

/-- Fixed-point numbers with few digits are floats. -/
theorem Room.exists_float {e : Int} {B q : ℚ} (h : Room f e B) (hq : Multiple e q)
    (hB : |q| ≤ B) : ∃ c : Ieee f, Finite c ∧ val c = q := by
  obtain ⟨z, hz⟩ := hq
  have hpos : (0 : ℚ) < 2 ^ e := zpow_pos (by norm_num) _
  have hr : f.Representable q := by
    refine f.repr_of_multiple (m := z) (e := e) hz ?_ h.fine (hB.trans h.range)
    have h1 := hB.trans h.digits
    rw [hz, abs_mul, abs_of_pos hpos] at h1
    have h2 := le_of_mul_le_mul_right h1 hpos
    exact_mod_cast h2
  exact ⟨rnd f false q, rnd_of_repr false hr⟩

section
variable {e : Int} {B : ℚ}

theorem Room.add (h : Room f e B) {a b : Ieee f} (ha : Finite a) (hb : Finite b)
    (hm : Multiple e (val a + val b)) (hB : |val a + val b| ≤ B) :
    Finite (a +. b) ∧ val (a +. b) = val a + val b := by
  obtain ⟨c, hc, hv⟩ := h.exists_float hm hB
  rw [← hv]
  exact (exactIfFloat f).add a b c ha hb hc hv.symm

theorem Room.sub (h : Room f e B) {a b : Ieee f} (ha : Finite a) (hb : Finite b)
    (hm : Multiple e (val a - val b)) (hB : |val a - val b| ≤ B) :
    Finite (a -. b) ∧ val (a -. b) = val a - val b := by
  obtain ⟨c, hc, hv⟩ := h.exists_float hm hB
  rw [← hv]
  exact (exactIfFloat f).sub a b c ha hb hc hv.symm

theorem Room.mul (h : Room f e B) {a b : Ieee f} (ha : Finite a) (hb : Finite b)
    (hm : Multiple e (val a * val b)) (hB : |val a * val b| ≤ B) :
    Finite (a *. b) ∧ val (a *. b) = val a * val b := by
  obtain ⟨c, hc, hv⟩ := h.exists_float hm hB
  rw [← hv]
  exact (exactIfFloat f).mul a b c ha hb hc hv.symm

theorem Room.div (h : Room f e B) {a b : Ieee f} (ha : Finite a) (hb : Finite b) (h0 : val b ≠ 0)
    (hm : Multiple e (val a / val b)) (hB : |val a / val b| ≤ B) :
    Finite (a /. b) ∧ val (a /. b) = val a / val b := by
  obtain ⟨c, hc, hv⟩ := h.exists_float hm hB
  rw [← hv]
  exact (exactIfFloat f).div a b c ha hb hc h0 hv.symm

theorem Room.mulAdd (h : Room f e B) {a b c : Ieee f} (ha : Finite a) (hb : Finite b)
    (hc : Finite c) (hm : Multiple e (val a * val b + val c)) (hB : |val a * val b + val c| ≤ B) :
    Finite (FloatOps.mulAdd a b c) ∧ val (FloatOps.mulAdd a b c) = val a * val b + val c := by
  obtain ⟨d, hd, hv⟩ := h.exists_float hm hB
  rw [← hv]
  exact (exactIfFloat f).mulAdd a b c d ha hb hc hd hv.symm

end

/-- A linear blend of fixed-point numbers. -/
theorem lerp_dyadic {e : Int} {s : Nat} {B : ℚ} (h : Room f (e - s) (2 * B)) (fma : Bool)
    {t : Ieee f} {v : Fin 2 → Ieee f} (ht : Finite t) (htm : Multiple (-(s : Int)) (val t))
    (ht0 : 0 ≤ val t) (ht1 : val t ≤ 1)
    (hv : ∀ i, Finite (v i) ∧ Multiple e (val (v i)) ∧ |val (v i)| ≤ B) :
    Finite (lerp fma t v) ∧
      val (lerp fma t v) = (1 - val t) * val (v 0) + val t * val (v 1) ∧
      Multiple (e - s) (val (lerp fma t v)) ∧ |val (lerp fma t v)| ≤ B := by
  obtain ⟨f0, m0, b0⟩ := hv 0
  obtain ⟨f1, m1, b1⟩ := hv 1
  have hle : e - s ≤ e := by omega
  have hB : 0 ≤ B := (abs_nonneg _).trans b0
  have a0 := abs_le.1 b0
  have a1 := abs_le.1 b1
  have hdb : |val (v 1) - val (v 0)| ≤ 2 * B := by rw [abs_le]; constructor <;> linarith
  have hd := h.sub f1 f0 ((m1.sub m0).of_le hle) hdb
  have hpm : Multiple (e - s) (val t * (val (v 1) - val (v 0))) := by
    have := htm.mul (m1.sub m0)
    rwa [show -(s : Int) + e = e - s by ring] at this
  have hpb : |val t * (val (v 1) - val (v 0))| ≤ 2 * B := by
    rw [abs_mul, abs_of_nonneg ht0]
    calc val t * |val (v 1) - val (v 0)| ≤ 1 * (2 * B) := by gcongr
      _ = 2 * B := one_mul _
  have hrm : Multiple (e - s) ((1 - val t) * val (v 0) + val t * val (v 1)) := by
    have := (m0.of_le hle).add hpm
    rwa [show val (v 0) + val t * (val (v 1) - val (v 0)) =
      (1 - val t) * val (v 0) + val t * val (v 1) by ring] at this
  have hrb : |(1 - val t) * val (v 0) + val t * val (v 1)| ≤ B := by
    rw [abs_le]
    constructor <;> nlinarith [mul_nonneg ht0 (by linarith : 0 ≤ B - val (v 1)),
      mul_nonneg ht0 (by linarith : 0 ≤ B + val (v 1)),
      mul_nonneg (sub_nonneg.2 ht1) (by linarith : 0 ≤ B - val (v 0)),
      mul_nonneg (sub_nonneg.2 ht1) (by linarith : 0 ≤ B + val (v 0))]
  have main : Finite (lerp fma t v) ∧
      val (lerp fma t v) = (1 - val t) * val (v 0) + val t * val (v 1) := by
    unfold lerp
    cases fma with
    | true =>
      have e1 : val t * val (v 1 -. v 0) + val (v 0) =
          (1 - val t) * val (v 0) + val t * val (v 1) := by rw [hd.2]; ring
      have := h.mulAdd ht hd.1 f0 (by rwa [e1]) (by rw [e1]; linarith)
      rw [e1] at this
      exact this
    | false =>
      have hp := h.mul ht hd.1 (by rwa [hd.2]) (by rwa [hd.2])
      have e1 : val (v 0) + val (t *. (v 1 -. v 0)) =
          (1 - val t) * val (v 0) + val t * val (v 1) := by rw [hp.2, hd.2]; ring
      have := h.add f0 hp.1 (by rwa [e1]) (by rw [e1]; linarith)
      rw [e1] at this
      exact this
  exact ⟨main.1, main.2, by rwa [main.2], by rwa [main.2]⟩

/-- Blending all `2^N` corners of a cell. -/
theorem blend_dyadic (fma : Bool) {e : Int} {B : ℚ} : ∀ {N : Nat} (s : Fin N → Nat)
    (_ : Room f (e - ((∑ k, s k : Nat) : Int)) (2 * B)) (t : Fin N → Ieee f) (c : Fin N → Nat)
    (g : (Fin N → Nat) → Ieee f)
    (_ : ∀ k, Finite (t k) ∧ Multiple (-(s k : Int)) (val (t k)) ∧ 0 ≤ val (t k) ∧ val (t k) ≤ 1)
    (_ : ∀ loc : Fin N → Nat, (∀ k, loc k = c k ∨ loc k = c k + 1) →
      Finite (g loc) ∧ Multiple e (val (g loc)) ∧ |val (g loc)| ≤ B),
    Finite (axisByAxis (fun k f => lerp fma (t k) fun p => f (c k + p.val)) g) ∧
    val (axisByAxis (fun k f => lerp fma (t k) fun p => f (c k + p.val)) g) =
      blend (fun k => val (t k)) c (fun loc => val (g loc)) ∧
    Multiple (e - ((∑ k, s k : Nat) : Int))
      (val (axisByAxis (fun k f => lerp fma (t k) fun p => f (c k + p.val)) g)) ∧
    |val (axisByAxis (fun k f => lerp fma (t k) fun p => f (c k + p.val)) g)| ≤ B
  | 0, s, h, t, c, g, _, hg => by
    have := hg (fun k => k.elim0) (fun k => k.elim0)
    unfold blend
    rw [axisByAxis, axisByAxis]
    simpa using this
  | N + 1, s, h, t, c, g, ht, hg => by
    rw [Fin.sum_univ_castSucc] at h ⊢
    have hs : e - ((∑ k : Fin N, s k.castSucc + s (Fin.last N) : Nat) : Int) =
        e - ((∑ k : Fin N, s k.castSucc : Nat) : Int) - (s (Fin.last N) : Int) := by
      push_cast; ring
    rw [hs] at h ⊢
    have ih : ∀ i, i = c (Fin.last N) ∨ i = c (Fin.last N) + 1 → _ := fun i hi =>
      blend_dyadic fma (fun k : Fin N => s k.castSucc) (h.mono (by omega) le_rfl)
        (fun k : Fin N => t k.castSucc) (fun k => c k.castSucc)
        (fun loc => g (Fin.snoc (α := fun _ => Nat) loc i)) (fun k => ht _)
        (fun loc hl => hg _ fun k => by
          refine Fin.lastCases ?_ (fun k => ?_) k
          · rw [Fin.snoc_last]; exact hi
          · rw [Fin.snoc_castSucc]; exact hl k)
    obtain ⟨f0, e0, m0, b0⟩ := ih _ (.inl rfl)
    obtain ⟨f1, e1, m1, b1⟩ := ih _ (.inr rfl)
    set a0 := axisByAxis (fun (k : Fin N) f => lerp fma (t k.castSucc)
      fun p : Fin 2 => f (c k.castSucc + p.val))
      (fun loc => g (Fin.snoc (α := fun _ => Nat) loc (c (Fin.last N)))) with ha0
    set a1 := axisByAxis (fun (k : Fin N) f => lerp fma (t k.castSucc)
      fun p : Fin 2 => f (c k.castSucc + p.val))
      (fun loc => g (Fin.snoc (α := fun _ => Nat) loc (c (Fin.last N) + 1))) with ha1
    obtain ⟨tf, tm, t0, t1⟩ := ht (Fin.last N)
    have hl := lerp_dyadic h fma (v := fun p : Fin 2 => if p = 0 then a0 else a1) tf tm t0 t1
      (fun i => by
        refine Fin.cases ?_ (fun p => ?_) i
        · exact ⟨f0, m0, b0⟩
        · exact ⟨f1, m1, b1⟩)
    have heval : axisByAxis (fun k f => lerp fma (t k) fun p : Fin 2 => f (c k + p.val)) g =
        lerp fma (t (Fin.last N)) (fun p : Fin 2 => if p = 0 then a0 else a1) := by
      rw [axisByAxis]
      congr 1
      funext p
      refine Fin.cases ?_ (fun p => ?_) p
      · rfl
      · have : p = 0 := Subsingleton.elim _ _
        subst this; rfl
    have hblend : blend (fun k => val (t k)) c (fun loc => val (g loc)) =
        (1 - val (t (Fin.last N))) * val a0 + val (t (Fin.last N)) * val a1 := by
      rw [e0, e1]
      unfold blend; rw [axisByAxis]
    rw [heval, hblend]
    exact hl

end Interpn
