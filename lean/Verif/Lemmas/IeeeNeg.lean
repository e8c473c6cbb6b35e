import Verif.Lemmas.Ieee
import Verif.Lemmas.DataRel

/-! Sign symmetry of IEEE 754 arithmetic. -/

set_option autoImplicit false

namespace Interpn
namespace Ieee
open FloatOps
variable {f : Format}

/-- `b` is `a` (for `σ = false`) or `-a` (for `σ = true`), the sign of zero left open. -/
def Rel (σ : Bool) : Ieee f → Ieee f → Prop
  | fin _ a _ _, fin _ b _ _ => b = if σ then -a else a
  | inf s, inf t => t = xor σ s
  | nan, nan => True
  | _, _ => False

theorem opposite_iff (a b : Ieee f) : Opposite a b ↔ Rel true a b := by
  cases a <;> cases b <;> simp [Opposite, Rel]

theorem sameValue_iff (a b : Ieee f) : SameValue a b ↔ Rel false a b := by
  cases a <;> cases b <;> simp [SameValue, Rel]

theorem roundHalfEven_neg (x : ℚ) : roundHalfEven (-x) = -roundHalfEven x := by
  by_cases hx : x = ⌊x⌋
  · rw [hx, show (-((⌊x⌋ : Int) : ℚ)) = ((-⌊x⌋ : Int) : ℚ) by push_cast; ring, roundHalfEven_int,
      roundHalfEven_int]
  · have h1 : (⌊x⌋ : ℚ) < x := lt_of_le_of_ne (Int.floor_le x) (Ne.symm hx)
    have h2 := Int.lt_floor_add_one x
    have hf : ⌊-x⌋ = -⌊x⌋ - 1 := by
      rw [Int.floor_eq_iff]; push_cast; constructor <;> linarith
    unfold roundHalfEven
    rw [hf]
    push_cast
    have he : (-⌊x⌋ - 1) % 2 = 0 ↔ ¬ ⌊x⌋ % 2 = 0 := by omega
    simp only [he]
    split_ifs <;> first | omega | (exfalso; linarith)

theorem roundQ_neg (q : ℚ) : f.roundQ (-q) = -f.roundQ q := by
  have hq : f.quantum (-q) = f.quantum q := by unfold Format.quantum; rw [abs_neg]
  unfold Format.roundQ
  rw [hq, neg_div, roundHalfEven_neg]
  push_cast; ring

theorem rnd_rel (σ s t : Bool) {q q' : ℚ} (h : q' = if σ then -q else q) :
    Rel σ (rnd f s q) (rnd f t q') := by
  subst h
  cases σ
  · simp only [Bool.false_eq_true, if_false]
    unfold rnd
    split <;> simp [Rel]
  · simp only [if_true]
    unfold rnd
    simp only [roundQ_neg, abs_neg]
    split
    · simp [Rel]
    · next h =>
      have hq : q ≠ 0 := by
        rintro rfl
        exact h (by rw [f.roundQ_zero, abs_zero]; exact f.omega_pos.le)
      rcases lt_or_gt_of_ne hq with h | h <;> simp [Rel, h, h.le]

theorem rel_add {σ : Bool} {a a' b b' : Ieee f} (ha : Rel σ a a') (hb : Rel σ b b') :
    Rel σ (add a b) (add a' b') := by
  cases a <;> cases a' <;> (try exact ha.elim) <;> cases b <;> cases b' <;>
    (try exact hb.elim) <;> simp only [add]
  · refine rnd_rel σ _ _ ?_
    rw [ha, hb]; cases σ <;> simp; ring
  all_goals first | exact trivial | exact ha | exact hb | skip
  rw [ha, hb]
  cases σ <;> simp <;> split <;> simp [Rel]

theorem rel_neg {σ : Bool} {a a' : Ieee f} (ha : Rel σ a a') : Rel σ (neg a) (neg a') := by
  cases a <;> cases a' <;> (try exact ha.elim) <;> simp only [neg, Rel] at *
  · rw [ha]; cases σ <;> simp
  · rw [ha]; simp

/-- Sign of a value other than zero. -/
theorem rel_sign {σ s s' : Bool} {q q' : ℚ} (h0 : q ≠ 0) (h : q' = if σ then -q else q)
    (hs : q ≠ 0 → s = decide (q < 0)) (hs' : q' ≠ 0 → s' = decide (q' < 0)) : s' = xor σ s := by
  have h0' : q' ≠ 0 := by rw [h]; cases σ <;> simpa using h0
  rw [hs h0, hs' h0', h]
  cases σ
  · simp
  · rcases lt_or_gt_of_ne h0 with h | h <;> simp [h, h.le]

theorem rel_zero {σ : Bool} {q q' : ℚ} (h : q' = if σ then -q else q) : q' = 0 ↔ q = 0 := by
  rw [h]; cases σ <;> simp

theorem rel_mulL {σ : Bool} {a a' : Ieee f} (c : Ieee f) (ha : Rel σ a a') :
    Rel σ (mul c a) (mul c a') := by
  cases a <;> cases a' <;> (try exact ha.elim) <;> cases c <;> simp only [mul]
  all_goals first
    | exact trivial
    | skip
  · refine rnd_rel σ _ _ ?_
    rw [ha]; cases σ <;> simp
  · next s q r w s' q' r' w' t =>
    simp only [rel_zero ha]
    split
    · trivial
    · next h0 =>
      show xor _ _ = xor _ (xor _ _)
      rw [rel_sign h0 ha w w']
      cases σ <;> cases s <;> cases t <;> rfl
  · next s s' t q r w =>
    split
    · trivial
    · show xor _ _ = xor _ (xor _ _)
      rw [ha]
      cases σ <;> cases s <;> cases t <;> rfl
  · next s s' t =>
    show xor _ _ = xor _ (xor _ _)
    rw [ha]
    cases σ <;> cases s <;> cases t <;> rfl

theorem mul_comm' (a b : Ieee f) : mul a b = mul b a := by
  cases a <;> cases b <;> simp only [mul]
  · rw [Bool.xor_comm, mul_comm]
  · rw [Bool.xor_comm]
  · rw [Bool.xor_comm]
  · rw [Bool.xor_comm]

theorem rel_mulR {σ : Bool} {a a' : Ieee f} (c : Ieee f) (ha : Rel σ a a') :
    Rel σ (mul a c) (mul a' c) := by
  rw [mul_comm' a, mul_comm' a']; exact rel_mulL c ha

theorem rel_div {σ : Bool} {a a' : Ieee f} (c : Ieee f) (ha : Rel σ a a') :
    Rel σ (div a c) (div a' c) := by
  cases a <;> cases a' <;> (try exact ha.elim) <;> cases c <;> simp only [div]
  all_goals first
    | exact trivial
    | skip
  · next s q r w s' q' r' w' t d rd wd =>
    split
    · simp only [rel_zero ha]
      split
      · trivial
      · next h0 =>
        show xor _ _ = xor _ (xor _ _)
        rw [rel_sign h0 ha w w']
        cases σ <;> cases s <;> cases t <;> rfl
    · refine rnd_rel σ _ _ ?_
      rw [ha]; cases σ <;> simp [neg_div]
  · simp [Rel]
  · next s s' t d rd wd =>
    show xor _ _ = xor _ (xor _ _)
    rw [ha]
    cases σ <;> cases s <;> cases t <;> rfl

theorem mulAdd_not_fin {a b : Ieee f} (c : Ieee f) (h : ¬ (Finite a ∧ Finite b)) :
    mulAdd a b c = add (mul a b) c := by
  cases a with
  | fin =>
    cases b with
    | fin => exact absurd (And.intro trivial trivial) h
    | inf => rfl
    | nan => rfl
  | inf => rfl
  | nan => rfl

theorem rel_finite {σ : Bool} {a a' : Ieee f} (ha : Rel σ a a') : Finite a' ↔ Finite a := by
  cases a <;> cases a' <;> (try exact ha.elim) <;> simp [Finite]

theorem rel_fmaL {σ : Bool} {a a' b b' : Ieee f} (c : Ieee f) (ha : Rel σ a a') (hb : Rel σ b b') :
    Rel σ (mulAdd c a b) (mulAdd c a' b') := by
  by_cases h : Finite c ∧ Finite a
  · have h' : Finite a' := (rel_finite ha).2 h.2
    obtain ⟨sc, qc, rc, wc, rfl⟩ := h.1.cases
    obtain ⟨sa, qa, ra, wa, rfl⟩ := h.2.cases
    obtain ⟨sa', qa', ra', wa', rfl⟩ := h'.cases
    cases b <;> cases b' <;> (try exact hb.elim) <;> simp only [mulAdd]
    · refine rnd_rel σ _ _ ?_
      rw [ha, hb]; cases σ <;> simp; ring
    · exact hb
    · trivial
  · have h' : ¬ (Finite c ∧ Finite a') := by rwa [rel_finite ha]
    rw [mulAdd_not_fin _ h, mulAdd_not_fin _ h']
    exact rel_add (rel_mulL c ha) hb

theorem rel_fmaR {σ : Bool} {a a' b b' : Ieee f} (c : Ieee f) (ha : Rel σ a a') (hb : Rel σ b b') :
    Rel σ (mulAdd a c b) (mulAdd a' c b') := by
  by_cases h : Finite a ∧ Finite c
  · have h' : Finite a' := (rel_finite ha).2 h.1
    obtain ⟨sc, qc, rc, wc, rfl⟩ := h.2.cases
    obtain ⟨sa, qa, ra, wa, rfl⟩ := h.1.cases
    obtain ⟨sa', qa', ra', wa', rfl⟩ := h'.cases
    cases b <;> cases b' <;> (try exact hb.elim) <;> simp only [mulAdd]
    · refine rnd_rel σ _ _ ?_
      rw [ha, hb]; cases σ <;> simp; ring
    · exact hb
    · trivial
  · have h' : ¬ (Finite a' ∧ Finite c) := by rwa [rel_finite ha]
    rw [mulAdd_not_fin _ h, mulAdd_not_fin _ h']
    exact rel_add (rel_mulR c ha) hb

theorem dataRel (σ : Bool) : DataRel (T := Ieee f) (Rel σ) where
  add := rel_add
  sub := fun ha hb => rel_add ha (rel_neg hb)
  neg := rel_neg
  mulL := rel_mulL
  mulR := rel_mulR
  div := rel_div
  fmaL := rel_fmaL
  fmaR := rel_fmaR

theorem dataRel_opposite : DataRel (T := Ieee f) Opposite := by
  have : (Opposite : Ieee f → Ieee f → Prop) = Rel true := by
    funext a b; exact propext (opposite_iff a b)
  rw [this]; exact dataRel true

theorem dataRel_sameValue : DataRel (T := Ieee f) SameValue := by
  have : (SameValue : Ieee f → Ieee f → Prop) = Rel false := by
    funext a b; exact propext (sameValue_iff a b)
  rw [this]; exact dataRel false

theorem opposite_neg (a : Ieee f) : Opposite a (-. a) := by
  cases a <;> first | rfl | exact trivial

end Ieee
end Interpn
