import Verif.Model.Search
import Mathlib.Data.Nat.Log
import Mathlib.Tactic.Linarith

/-! Facts about the bisection. -/

set_option autoImplicit false

namespace Interpn

variable {T : Type}

theorem bisectLoop_range (s : List T) (pred : T → Bool) (size base calls : Nat)
    (hs : 0 < size) (h : base + size ≤ s.length) :
    (bisectLoop s pred size base calls).1 < s.length := by
  induction size using Nat.strong_induction_on generalizing base calls with
  | _ size ih =>
    unfold bisectLoop
    split
    · next h1 =>
      apply ih (size - size / 2) (by omega) _ _ (by omega)
      split <;> omega
    · simp only; omega

theorem partitionPoint_le (s : List T) (pred : T → Bool) :
    partitionPoint s pred ≤ s.length := by
  unfold partitionPoint partitionPointCounted
  split
  · simp
  · next h =>
    have := bisectLoop_range s pred s.length 0 0 (by omega) (by omega)
    simp only
    split <;> omega

/-- On a partitioned slice the loop keeps the partition point bracketed. -/
theorem bisectLoop_spec (s : List T) (pred : T → Bool) (k : Nat)
    (hk : ∀ i (h : i < s.length), pred s[i] = true ↔ i < k)
    (size base calls : Nat) (hs : 0 < size) (h : base + size ≤ s.length)
    (hb : base = 0 ∨ base < k) (hk' : k ≤ base + size) :
    let b := (bisectLoop s pred size base calls).1
    (b = 0 ∨ b < k) ∧ k ≤ b + 1 := by
  induction size using Nat.strong_induction_on generalizing base calls with
  | _ size ih =>
    unfold bisectLoop
    split
    · next h1 =>
      simp only
      have hm : base + size / 2 < s.length := by omega
      have := hk _ hm
      apply ih (size - size / 2) (by omega) _ _ (by omega)
      · split <;> omega
      · split
        · next hp =>
          rw [List.getElem?_eq_getElem hm] at hp
          right; exact this.1 (by simpa using hp)
        · exact hb
      · split
        · omega
        · next hp =>
          rw [List.getElem?_eq_getElem hm] at hp
          have : ¬ (base + size / 2 < k) := fun hh => hp (by simpa using this.2 hh)
          omega
    · simp only; omega

/-- `partition_point` finds the partition point of any partitioned slice. -/
theorem partitionPoint_eq (s : List T) (pred : T → Bool) (k : Nat) (hks : k ≤ s.length)
    (hk : ∀ i (h : i < s.length), pred s[i] = true ↔ i < k) : partitionPoint s pred = k := by
  unfold partitionPoint partitionPointCounted
  split
  · next h => simp only; omega
  · next h =>
    have hr := bisectLoop_range s pred s.length 0 0 (by omega) (by omega)
    have hb := bisectLoop_spec s pred k hk s.length 0 0 (by omega) (by omega) (Or.inl rfl)
      (by omega)
    simp only at hb ⊢
    have := hk _ hr
    rw [List.getElem?_eq_getElem hr]
    simp only [Option.any_some]
    split
    · next hp => have := this.1 hp; omega
    · next hp =>
      have : ¬ _ := fun hh => hp (this.2 hh)
      omega

theorem bisectLoop_calls (s : List T) (pred : T → Bool) (size base calls : Nat)
    (hs : 0 < size) :
    (bisectLoop s pred size base calls).2 = calls + Nat.clog 2 size := by
  induction size using Nat.strong_induction_on generalizing base calls with
  | _ size ih =>
    unfold bisectLoop
    split
    · next h1 =>
      simp only
      have hc := Nat.clog_of_two_le (b := 2) (n := size) (by norm_num) (by omega)
      rw [show (size + 2 - 1) / 2 = size - size / 2 by omega] at hc
      rw [ih (size - size / 2) (by omega) _ _ (by omega), hc]
      omega
    · next h1 =>
      have : size = 1 := by omega
      subst this
      simp

/-- Number of comparisons made by `partition_point`. -/
theorem partitionPoint_calls (s : List T) (pred : T → Bool) (hs : s ≠ []) :
    (partitionPointCounted s pred).2 = Nat.clog 2 s.length + 1 := by
  have hl : 0 < s.length := List.length_pos_iff.2 hs
  unfold partitionPointCounted
  rw [if_neg (by omega)]
  simp only
  rw [bisectLoop_calls _ _ _ _ _ hl]
  omega

end Interpn
