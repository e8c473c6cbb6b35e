import Verif.Spec.Special
import Verif.Model.Exact
import Mathlib.Data.Rat.Floor

/-! A float type with NaN, two infinities and arbitrary rounding (including overflow to infinity)
of finite results: the concrete arithmetic used to show that the laws of `Spec/Special.lean` are
satisfiable. The only part of IEEE 754 not represented is the sign of zero. -/

set_option autoImplicit false

namespace Interpn

/-- Finite number, infinity (`true` for `-∞`), or NaN. -/
inductive ExtNum (K : Type) where
  | fin (a : K)
  | inf (neg : Bool)
  | nan
  deriving DecidableEq

namespace ExtNum
variable {K : Type} [Field K] [LinearOrder K] [FloorRing K]

/-- `a + b`. -/
def add (rnd : K → ExtNum K) : ExtNum K → ExtNum K → ExtNum K
  | fin a, fin b => rnd (a + b)
  | nan, _ => nan
  | _, nan => nan
  | inf s, inf t => if s = t then inf s else nan
  | inf s, fin _ => inf s
  | fin _, inf t => inf t

/-- `-a`. -/
def neg : ExtNum K → ExtNum K
  | fin a => fin (-a)
  | inf s => inf !s
  | nan => nan

/-- `|a|`. -/
def abs : ExtNum K → ExtNum K
  | fin a => fin (if 0 ≤ a then a else -a)
  | inf _ => inf false
  | nan => nan

/-- `a * b`. -/
def mul (rnd : K → ExtNum K) : ExtNum K → ExtNum K → ExtNum K
  | fin a, fin b => rnd (a * b)
  | nan, _ => nan
  | _, nan => nan
  | inf s, inf t => inf (xor s t)
  | inf s, fin b => if b = 0 then nan else inf (xor s (decide (b < 0)))
  | fin a, inf t => if a = 0 then nan else inf (xor t (decide (a < 0)))

/-- `a / b`; all zeros are positive. -/
def div (rnd : K → ExtNum K) : ExtNum K → ExtNum K → ExtNum K
  | fin a, fin b => if b = 0 then (if a = 0 then nan else inf (decide (a < 0))) else rnd (a / b)
  | nan, _ => nan
  | _, nan => nan
  | inf _, inf _ => nan
  | inf s, fin b => inf (xor s (decide (b < 0)))
  | fin _, inf _ => fin 0

/-- `a * b + c` with one rounding. -/
def mulAdd (rnd : K → ExtNum K) (a b c : ExtNum K) : ExtNum K :=
  match a, b, c with
  | fin a, fin b, fin c => rnd (a * b + c)
  | fin _, fin _, c => c
  | a, b, c => add rnd (mul rnd a b) c

/-- `floor`, exact. -/
def floor : ExtNum K → ExtNum K
  | fin a => fin (⌊a⌋ : K)
  | a => a

/-- `a < b`. -/
def lt : ExtNum K → ExtNum K → Bool
  | fin a, fin b => decide (a < b)
  | nan, _ => false
  | _, nan => false
  | inf s, inf t => s && !t
  | inf s, fin _ => s
  | fin _, inf t => !t

/-- `a ≤ b`. -/
def le : ExtNum K → ExtNum K → Bool
  | fin a, fin b => decide (a ≤ b)
  | nan, _ => false
  | _, nan => false
  | inf s, inf t => s || !t
  | inf s, fin _ => s
  | fin _, inf t => !t

/-- Cast to `isize`, truncating. -/
def toIsize : ExtNum K → Option Int
  | fin a => if isizeMin ≤ truncZ a ∧ truncZ a ≤ isizeMax then some (truncZ a) else none
  | _ => none

/-- NaN. -/
def IsNan (a : ExtNum K) : Prop := a = nan

/-- NaN or infinite. -/
def Nonfinite : ExtNum K → Prop
  | fin _ => False
  | _ => True

instance (a : ExtNum K) : Decidable (IsNan a) := inferInstanceAs (Decidable (a = nan))
instance (a : ExtNum K) : Decidable (Nonfinite a) := by cases a <;> unfold Nonfinite <;> infer_instance

/-- The float operations with rounding function `rnd`. -/
@[reducible] def ops (rnd : K → ExtNum K) : FloatOps (ExtNum K) where
  zero := fin 0
  one := fin 1
  add := add rnd
  sub := fun a b => add rnd a (neg b)
  mul := mul rnd
  div := div rnd
  neg := neg
  abs := abs
  floor := floor
  mulAdd := mulAdd rnd
  fmin := fun a b => if a = nan then b else if b = nan then a else if lt b a then b else a
  fmax := fun a b => if a = nan then b else if b = nan then a else if lt a b then b else a
  lt := lt
  le := le
  toIsize := toIsize
  ofUsize := fun n => some (rnd n)
  toIsize_range := by
    intro x z h
    unfold toIsize at h
    split at h
    · split at h
      · next h' => cases h; exact h'
      · cases h
    · cases h

/-- The laws of special values hold, whatever the rounding. -/
theorem special (rnd : K → ExtNum K) :
    @SpecialValues (ExtNum K) (ops rnd) IsNan Nonfinite := by
  let _ := ops rnd
  have hn : Absorbing (T := ExtNum K) IsNan := by
    constructor
    · rintro a b (rfl | rfl)
      · show add rnd _ _ = _; cases b <;> rfl
      · show add rnd _ _ = _; cases a <;> rfl
    · rintro a b (rfl | rfl)
      · show add rnd _ (neg _) = _; cases b <;> rfl
      · show add rnd _ (neg _) = _; cases a <;> rfl
    · rintro a b (rfl | rfl)
      · show mul rnd _ _ = _; cases b <;> rfl
      · show mul rnd _ _ = _; cases a <;> rfl
    · rintro a b rfl; show div rnd _ _ = _; cases b <;> rfl
    · rintro a rfl; rfl
    · rintro a rfl; rfl
    · rintro a rfl; rfl
    · rintro a b c (rfl | rfl | rfl)
      · show mulAdd rnd _ _ _ = _; cases b <;> cases c <;> rfl
      · show mulAdd rnd _ _ _ = _; cases a <;> cases c <;> rfl
      · show mulAdd rnd _ _ _ = _
        cases a <;> cases b <;> simp only [mulAdd] <;>
          (first | rfl | (generalize mul rnd _ _ = m; cases m <;> rfl))
  have hadd : ∀ a b : ExtNum K, Nonfinite a ∨ Nonfinite b → Nonfinite (add rnd a b) := by
    intro a b h
    cases a <;> cases b <;> simp only [Nonfinite, or_self, or_true, or_false] at h <;>
      simp only [add] <;> (try split) <;> trivial
  have hmul : ∀ a b : ExtNum K, Nonfinite a ∨ Nonfinite b → Nonfinite (mul rnd a b) := by
    intro a b h
    cases a <;> cases b <;> simp only [Nonfinite, or_self, or_true, or_false] at h <;>
      simp only [mul] <;> (try split) <;> trivial
  have hneg : ∀ a : ExtNum K, Nonfinite a → Nonfinite (neg a) := by
    intro a h; cases a <;> trivial
  have hf : Absorbing (T := ExtNum K) Nonfinite := by
    refine ⟨hadd, fun a b h => hadd a (neg b) (h.imp_right (hneg b)), hmul, ?_, hneg, ?_, ?_, ?_⟩
    · intro a b h
      show Nonfinite (div rnd a b)
      cases a <;> cases b <;> first | exact h.elim | trivial
    · intro a h; cases a <;> trivial
    · intro a h; cases a <;> trivial
    · intro a b c h
      show Nonfinite (mulAdd rnd a b c)
      cases a <;> cases b
      · cases c
        · simp [Nonfinite] at h
        · trivial
        · trivial
      all_goals
        rw [mulAdd]
        · refine hadd _ _ (.inl (hmul _ _ ?_))
          first | exact .inl trivial | exact .inr trivial
        all_goals simp
  refine ⟨hn, hf, ?_, ?_, ?_, ?_⟩
  · rintro a rfl; trivial
  · rintro a b (rfl | rfl)
    · show lt _ _ = _; cases b <;> rfl
    · show lt _ _ = _; cases a <;> rfl
  · rintro a b (rfl | rfl)
    · show le _ _ = _; cases b <;> rfl
    · show le _ _ = _; cases a <;> rfl
  · intro a h
    cases a
    · exact h.elim
    · rfl
    · rfl

theorem totalOfUsize (rnd : K → ExtNum K) : @TotalOfUsize (ExtNum K) (ops rnd) :=
  fun _ _ => ⟨_, rfl⟩

/-- A concrete float type over ℚ for the examples: results are rounded down to a multiple of
`1/1024`, and overflow beyond `±2^100`. -/
@[reducible] def sampleOps : FloatOps (ExtNum ℚ) :=
  ops fun a => if a < -(2 ^ 100) then inf true else if 2 ^ 100 < a then inf false
    else fin ((⌊a * 1024⌋ : ℚ) / 1024)

end ExtNum
end Interpn
