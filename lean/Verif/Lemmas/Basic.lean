import Verif.Model.Core
import Mathlib.Tactic.Common

/-! Helper lemmas about outcomes, arrays and loops. -/

set_option autoImplicit false

namespace Interpn

variable {α β σ : Type} {N : Nat}

namespace Res

@[simp] theorem ok_bind (a : α) (f : α → Res β) : (Res.ok a >>= f) = f a := rfl
@[simp] theorem err_bind (e : String) (f : α → Res β) : (Res.err e >>= f) = Res.err e := rfl
@[simp] theorem panic_bind (f : α → Res β) : ((Res.panic : Res α) >>= f) = Res.panic := rfl
@[simp] theorem pure_eq (a : α) : (pure a : Res α) = Res.ok a := rfl

theorem bind_eq_ok {r : Res α} {f : α → Res β} {b : β} :
    (r >>= f) = .ok b ↔ ∃ a, r = .ok a ∧ f a = .ok b := by
  cases r <;> simp

theorem bind_eq_err {r : Res α} {f : α → Res β} {e : String} :
    (r >>= f) = .err e ↔ r = .err e ∨ ∃ a, r = .ok a ∧ f a = .err e := by
  cases r <;> simp

theorem bind_eq_panic {r : Res α} {f : α → Res β} :
    (r >>= f) = .panic ↔ r = .panic ∨ ∃ a, r = .ok a ∧ f a = .panic := by
  cases r <;> simp

instance : LawfulMonad Res := LawfulMonad.mk'
  (id_map := by intro α x; cases x <;> rfl)
  (pure_bind := by intros; rfl)
  (bind_assoc := by intro α β γ x f g; cases x <;> rfl)

end Res

@[simp] theorem aget_fin (a : Fin N → α) (i : Fin N) : aget a i.val = .ok (a i) := by
  simp [aget]

theorem aget_lt (a : Fin N → α) {i : Nat} (h : i < N) : aget a i = .ok (a ⟨i, h⟩) := by
  simp [aget, h]

theorem aset_lt (a : Fin N → α) {i : Nat} (h : i < N) (v : α) :
    aset a i v = .ok (fun j => if j.val = i then v else a j) := by
  simp [aset, h]

theorem lget_lt (s : List α) {i : Nat} (h : i < s.length) : lget s i = .ok s[i] := by
  simp [lget, h]

theorem lget_of_some {s : List α} {i : Nat} {a : α} (h : s[i]? = some a) : lget s i = .ok a := by
  simp [lget, h]

theorem lget_eq_ok {s : List α} {i : Nat} {a : α} : lget s i = .ok a ↔ s[i]? = some a := by
  unfold lget; split <;> simp_all

theorem lget_eq_panic {s : List α} {i : Nat} : lget s i = .panic ↔ s.length ≤ i := by
  unfold lget; split
  · next h => simp; exact (List.getElem?_eq_some_iff.1 h).1
  · next h => simpa using h

theorem uadd_ok {a b : Nat} (h : a + b ≤ usizeMax) : uadd a b = .ok (a + b) := by simp [uadd, h]
theorem umul_ok {a b : Nat} (h : a * b ≤ usizeMax) : umul a b = .ok (a * b) := by simp [umul, h]
theorem usub_ok {a b : Nat} (h : b ≤ a) : usub a b = .ok (a - b) := by simp [usub, h]
theorem isub_ok {a b : Int} (h : isizeMin ≤ a - b) (h' : a - b ≤ isizeMax) :
    isub a b = .ok (a - b) := by simp [isub, h, h']

@[simp] theorem forRange_zero (init : σ) (body : Nat → σ → Res σ) :
    forRange 0 init body = .ok init := rfl

theorem forRange_succ (n : Nat) (init : σ) (body : Nat → σ → Res σ) :
    forRange (n + 1) init body = (forRange n init body >>= body n) := rfl

/-- Invariant rule for loops that do not fail. -/
theorem forRange_inv {n : Nat} {init : σ} {body : Nat → σ → Res σ} (P : Nat → σ → Prop)
    (h0 : P 0 init)
    (hs : ∀ i, i < n → ∀ s, P i s → ∃ s', body i s = .ok s' ∧ P (i + 1) s') :
    ∃ s, forRange n init body = .ok s ∧ P n s := by
  induction n with
  | zero => exact ⟨init, rfl, h0⟩
  | succ n ih =>
    obtain ⟨s, h, hP⟩ := ih (fun i hi => hs i (by omega))
    obtain ⟨s', h', hP'⟩ := hs n (by omega) s hP
    exact ⟨s', by rw [forRange_succ, h]; exact h', hP'⟩

/-- A loop whose states are known. -/
theorem forRange_eq {n : Nat} {init : σ} {body : Nat → σ → Res σ} (f : Nat → σ)
    (h0 : f 0 = init) (hs : ∀ i, i < n → body i (f i) = .ok (f (i + 1))) :
    forRange n init body = .ok (f n) := by
  obtain ⟨s, h, rfl⟩ := forRange_inv (n := n) (init := init) (body := body)
    (fun i s => s = f i) h0.symm (by rintro i hi s rfl; exact ⟨_, hs i hi, rfl⟩)
  exact h

theorem forRange_congr {n : Nat} {init : σ} {body body' : Nat → σ → Res σ}
    (h : ∀ i, i < n → ∀ s, body i s = body' i s) :
    forRange n init body = forRange n init body' := by
  induction n with
  | zero => rfl
  | succ n ih =>
    rw [forRange_succ, forRange_succ, ih (fun i hi => h i (by omega))]
    congr 1; funext s; exact h n (by omega) s

/-- Congruence for loops with an invariant. -/
theorem forRange_congr_inv {n : Nat} {init : σ} {body body' : Nat → σ → Res σ}
    (P : Nat → σ → Prop) (h0 : P 0 init)
    (hs : ∀ i, i < n → ∀ s, P i s → ∀ s', body i s = .ok s' → P (i + 1) s')
    (h : ∀ i, i < n → ∀ s, P i s → body i s = body' i s) :
    forRange n init body = forRange n init body' ∧
      ∀ s, forRange n init body = .ok s → P n s := by
  induction n with
  | zero => exact ⟨rfl, by rintro s ⟨⟩; exact h0⟩
  | succ n ih =>
    obtain ⟨h1, h2⟩ := ih (fun i hi => hs i (by omega)) (fun i hi => h i (by omega))
    rw [forRange_succ, forRange_succ, ← h1]
    cases hr : forRange n init body with
    | ok s =>
      have hP := h2 s hr
      refine ⟨h n (by omega) s hP, fun s' hs' => hs n (by omega) s hP s' hs'⟩
    | err e => exact ⟨rfl, by simp⟩
    | panic => exact ⟨rfl, by simp⟩

end Interpn
