import Verif.Lemmas.BinaryFormat
import Verif.Model.Exact

/-! IEEE 754 binary floating-point arithmetic, rounding to nearest, ties to even: the arithmetic of
Rust `f32` and `f64`. Numbers with signed zeros, infinities, and one NaN (Rust does not specify the
sign and payload of a computed NaN, and no operation used by the crate observes them). -/

set_option autoImplicit false

namespace Interpn

/-- A datum of format `f`. The sign of a number other than zero is that of its value. -/
inductive Ieee (f : Format) where
  | fin (neg : Bool) (q : ℚ) (repr : f.Representable q) (sign : q ≠ 0 → neg = decide (q < 0))
  | inf (neg : Bool)
  | nan
  deriving DecidableEq

/-- Rust `f32`. -/
abbrev F32 := Ieee Format.binary32
/-- Rust `f64`. -/
abbrev F64 := Ieee Format.binary64

namespace Ieee
variable {f : Format}

/-- Round the exact result `q` of an operation (IEEE 754-2019, 4.3.1 and 7.4). `zeroNeg` is the sign
of the result if `q` is zero; a result that underflows to zero keeps the sign of `q`. -/
def rnd (f : Format) (zeroNeg : Bool) (q : ℚ) : Ieee f :=
  if h : |f.roundQ q| ≤ f.omega then
    fin (if q = 0 then zeroNeg else decide (q < 0)) (f.roundQ q) (f.roundQ_isRepr h) (by
      intro h0
      have hq : q ≠ 0 := by
        rintro rfl
        exact h0 f.roundQ_zero
      rw [if_neg hq, decide_eq_decide]
      constructor
      · exact fun hn => lt_of_le_of_ne (f.roundQ_nonpos hn.le) h0
      · intro hn
        by_contra hc
        exact absurd (f.roundQ_nonneg (not_lt.1 hc)) (not_le.2 hn))
  else inf (decide (q < 0))

/-- `-a`: the sign is flipped, also of zero. -/
def neg : Ieee f → Ieee f
  | fin s q h hs => fin (!s) (-q) h.neg (by
      intro h0
      have hq : q ≠ 0 := fun h => h0 (by rw [h, neg_zero])
      rw [hs hq]
      rcases lt_or_gt_of_ne hq with h | h
      · simp [h, h.le]
      · simp [h, h.le])
  | inf s => inf !s
  | nan => nan

/-- `|a|`: the sign is cleared. -/
def abs : Ieee f → Ieee f
  | fin _ q h _ => fin false |q| (by
      rcases abs_choice q with e | e
      · rw [e]; exact h
      · rw [e]; exact h.neg) (by intro _; simp)
  | inf _ => inf false
  | nan => nan

/-- `a + b`. An exact zero sum is `-0` only if both operands are negative (6.3). -/
def add : Ieee f → Ieee f → Ieee f
  | fin s a _ _, fin t b _ _ => rnd f (s && t) (a + b)
  | nan, _ => nan
  | _, nan => nan
  | inf s, inf t => if s = t then inf s else nan
  | inf s, fin .. => inf s
  | fin .., inf t => inf t

/-- `a * b`. The sign is the exclusive or of the signs. -/
def mul : Ieee f → Ieee f → Ieee f
  | fin s a _ _, fin t b _ _ => rnd f (xor s t) (a * b)
  | nan, _ => nan
  | _, nan => nan
  | inf s, inf t => inf (xor s t)
  | inf s, fin t b _ _ => if b = 0 then nan else inf (xor s t)
  | fin s a _ _, inf t => if a = 0 then nan else inf (xor s t)

/-- `a / b`. Division by zero gives an infinity, except `0 / 0`. -/
def div : Ieee f → Ieee f → Ieee f
  | fin s a _ _, fin t b _ _ =>
    if b = 0 then (if a = 0 then nan else inf (xor s t)) else rnd f (xor s t) (a / b)
  | nan, _ => nan
  | _, nan => nan
  | inf _, inf _ => nan
  | inf s, fin t _ _ _ => inf (xor s t)
  | fin s _ _ _, inf t => fin (xor s t) 0 f.zero_repr (fun h => absurd rfl h)

/-- `a * b + c` with one rounding. -/
def mulAdd (a b c : Ieee f) : Ieee f :=
  match a, b, c with
  | fin s a _ _, fin t b _ _, fin r c _ _ => rnd f (xor s t && r) (a * b + c)
  | fin .., fin .., c => c
  | a, b, c => add (mul a b) c

/-- `floor`. The sign is kept, also of zero. -/
def floor : Ieee f → Ieee f
  | fin s q h hs => fin s ((⌊q⌋ : Int) : ℚ) (f.floor_repr h) (by
      intro h0
      have hq : q ≠ 0 := by
        rintro rfl
        exact h0 (by simp)
      rw [hs hq, decide_eq_decide]
      have h1 := Int.floor_le q
      constructor
      · intro hn; linarith
      · intro hn
        have : ⌊q⌋ < 0 := by exact_mod_cast hn
        by_contra hc
        have := Int.floor_nonneg.2 (not_lt.1 hc)
        omega)
  | a => a

/-- `a < b`, false on NaN; the two zeros are equal. -/
def lt : Ieee f → Ieee f → Bool
  | fin _ a _ _, fin _ b _ _ => decide (a < b)
  | nan, _ => false
  | _, nan => false
  | inf s, inf t => s && !t
  | inf s, fin .. => s
  | fin .., inf t => !t

/-- `a ≤ b`, false on NaN. -/
def le : Ieee f → Ieee f → Bool
  | fin _ a _ _, fin _ b _ _ => decide (a ≤ b)
  | nan, _ => false
  | _, nan => false
  | inf s, inf t => s || !t
  | inf s, fin .. => s
  | fin .., inf t => !t

/-- `NumCast` to `isize`: truncated, `None` outside the range of `isize` and for NaN. -/
def toIsize : Ieee f → Option Int
  | fin _ a _ _ => if isizeMin ≤ truncZ a ∧ truncZ a ≤ isizeMax then some (truncZ a) else none
  | _ => none

/-- The operations of Rust floats used by the crate. `min`/`max` ignore NaN; which of two equal
zeros they return is unspecified in Rust, here it is the first. -/
instance ops (f : Format) : FloatOps (Ieee f) where
  zero := fin false 0 f.zero_repr (fun h => absurd rfl h)
  one := fin false 1 f.one_repr (fun _ => (decide_eq_false (by norm_num)).symm)
  add := add
  sub := fun a b => add a (neg b)
  mul := mul
  div := div
  neg := neg
  abs := abs
  floor := floor
  mulAdd := mulAdd
  fmin := fun a b => if a = nan then b else if b = nan then a else if lt b a then b else a
  fmax := fun a b => if a = nan then b else if b = nan then a else if lt a b then b else a
  lt := lt
  le := le
  toIsize := toIsize
  ofUsize := fun n => some (rnd f false n)
  toIsize_range := by
    intro x z h
    unfold toIsize at h
    split at h
    · split at h
      · next h' => cases h; exact h'
      · cases h
    · cases h

/-- The number a float stands for (0 for NaN and infinities). -/
def val : Ieee f → ℚ
  | fin _ q _ _ => q
  | _ => 0

/-- Neither infinite nor NaN. -/
def Finite : Ieee f → Prop
  | fin .. => True
  | _ => False

/-- NaN. -/
def IsNan (a : Ieee f) : Prop := a = nan

instance (a : Ieee f) : Decidable (Finite a) := by cases a <;> unfold Finite <;> infer_instance
instance (a : Ieee f) : Decidable (IsNan a) := inferInstanceAs (Decidable (a = nan))

end Ieee
end Interpn
