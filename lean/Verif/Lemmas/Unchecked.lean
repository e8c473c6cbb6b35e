import Mathlib.Tactic.CasesM
import Verif.Model.Unchecked.OneDim
import Verif.Model.Unchecked.Utils
import Verif.Model.Unchecked.Multilinear.Regular
import Verif.Model.Unchecked.Multilinear.Rectilinear
import Verif.Model.Unchecked.Multicubic.Regular
import Verif.Model.Unchecked.Multicubic.Rectilinear
import Verif.Model.Unchecked.Nearest.Regular
import Verif.Model.Unchecked.Nearest.Rectilinear

/-! Builds without overflow checks agree with checked builds wherever those do not panic. -/

set_option autoImplicit false

namespace Interpn
open FloatOps

/-- `r'` is what the unchecked build does where the checked one does `r`: the same, unless `r`
is a panic. -/
def Le {α : Type} (r r' : Res α) : Prop := r = .panic ∨ r' = r

/-- The same for outcomes with an output buffer. -/
def LeOut {α β : Type} (p q : Res α × β) : Prop := p.1 = .panic ∨ q = p

section
variable {α β σ : Type}

theorem Le.refl (r : Res α) : Le r r := .inr rfl

theorem Le.bind {r r' : Res α} {f f' : α → Res β} (h : Le r r') (hf : ∀ a, Le (f a) (f' a)) :
    Le (r >>= f) (r' >>= f') := by
  rcases h with rfl | rfl
  · exact .inl rfl
  · cases r' with
    | ok a => exact hf a
    | err e => exact .inr rfl
    | panic => exact .inl rfl

theorem Le.ite {c : Prop} [Decidable c] {a b a' b' : Res α} (h1 : Le a a') (h2 : Le b b') :
    Le (if c then a else b) (if c then a' else b') := by
  split <;> assumption

theorem Le.dite {c : Prop} [Decidable c] {a a' : c → Res α} {b b' : ¬ c → Res α}
    (h1 : ∀ h, Le (a h) (a' h)) (h2 : ∀ h, Le (b h) (b' h)) :
    Le (if h : c then a h else b h) (if h : c then a' h else b' h) := by
  split
  · exact h1 _
  · exact h2 _

theorem Le.forRange {n : Nat} {init : σ} {body body' : Nat → σ → Res σ}
    (h : ∀ i s, Le (body i s) (body' i s)) :
    Le (forRange n init body) (forRange n init body') := by
  induction n with
  | zero => exact .refl _
  | succ n ih => exact ih.bind fun a => h n a

theorem Le.uadd (a b : Nat) : Le (uadd a b) (Unchecked.uadd a b) := by
  unfold Interpn.uadd Unchecked.uadd
  split
  · rename_i h
    right
    rw [Nat.mod_eq_of_lt (by unfold usizeMax at h; omega)]
  · exact .inl rfl

theorem Le.umul (a b : Nat) : Le (umul a b) (Unchecked.umul a b) := by
  unfold Interpn.umul Unchecked.umul
  split
  · rename_i h
    right
    rw [Nat.mod_eq_of_lt (by unfold usizeMax at h; omega)]
  · exact .inl rfl

theorem Le.usub (a b : Nat) : Le (usub a b) (Unchecked.usub a b) := by
  unfold Interpn.usub Unchecked.usub
  split
  · exact .inr rfl
  · exact .inl rfl

theorem Le.isub (a b : Int) : Le (isub a b) (Unchecked.isub a b) := by
  unfold Interpn.isub Unchecked.isub
  split
  · rename_i h
    right
    unfold isizeMin isizeMax at h
    rw [Int.emod_eq_of_lt (by omega) (by omega)]
    congr 1; omega
  · exact .inl rfl

theorem Le.uprodFrom (ds : List Nat) : ∀ acc : Nat,
    Le (uprodFrom acc ds) (Unchecked.uprodFrom acc ds) := by
  induction ds with
  | nil => exact fun _ => .refl _
  | cons d ds ih => exact fun acc => (Le.umul acc d).bind fun a => ih a

theorem Le.uprod (ds : List Nat) : Le (uprod ds) (Unchecked.uprod ds) := Le.uprodFrom ds 1

theorem LeOut.refl (p : Res α × β) : LeOut p p := .inr rfl

theorem LeOut.ite {c : Prop} [Decidable c] {a b a' b' : Res α × β} (h1 : LeOut a a')
    (h2 : LeOut b b') : LeOut (if c then a else b) (if c then a' else b') := by
  split <;> assumption

theorem LeOut.batchLoop {point point' : Nat → Res α} (h : ∀ i, Le (point i) (point' i)) :
    ∀ (k i : Nat) (out : List α), LeOut (batchLoop point k i out) (batchLoop point' k i out)
  | 0, _, _ => .refl _
  | k + 1, i, out => by
    unfold Interpn.batchLoop
    rcases h i with hp | hp
    · rw [hp]; exact .inl rfl
    · rw [hp]
      cases point i with
      | ok v =>
        simp only
        split
        · exact LeOut.batchLoop h k (i + 1) _
        · exact .refl _
      | err e => exact .refl _
      | panic => exact .refl _

theorem LeOut.tryOut {r r' : Res α} {out : List β} {f f' : α → Res Unit × List β}
    (h : Le r r') (hf : ∀ a, LeOut (f a) (f' a)) :
    LeOut (tryOut r out f) (tryOut r' out f') := by
  rcases h with rfl | rfl
  · exact .inl rfl
  · cases r' with
    | ok a => exact hf a
    | err e => exact .inr rfl
    | panic => exact .inl rfl

theorem Le.allocRun {zero : α} {obs : List (List α)} {run run' : List α → Res Unit × List α}
    (h : ∀ o, LeOut (run o) (run' o)) :
    Le (allocRun zero obs run) (allocRun zero obs run') := by
  unfold Interpn.allocRun
  refine (Le.refl _).bind fun o0 => ?_
  rcases h (List.replicate o0.length zero) with hp | hp
  · simp only [hp]; exact .inl rfl
  · simp only [hp]; exact .refl _

end

/-- One step towards `Le r r'` for two programs of the same shape. -/
macro "le_step" : tactic => `(tactic| first
  | with_reducible exact Le.refl _ | with_reducible exact LeOut.refl _
  | exact Le.uadd _ _ | exact Le.umul _ _ | exact Le.usub _ _ | exact Le.isub _ _
  | exact Le.uprod _
  | assumption
  | with_reducible refine Le.bind ?_ fun _ => ?_
  | with_reducible refine Le.ite ?_ ?_
  | with_reducible refine Le.dite (fun _ => ?_) (fun _ => ?_)
  | with_reducible refine Le.forRange fun _ _ => ?_
  | with_reducible refine LeOut.ite ?_ ?_
  | with_reducible refine LeOut.batchLoop (fun _ => ?_) _ _ _
  | with_reducible refine LeOut.tryOut ?_ fun _ => ?_
  | with_reducible refine Le.allocRun fun _ => ?_
  | casesm _ × _
  | dsimp only
  | (split <;> (rename_i h; simp only [h]))
  | (split <;> split <;> try (exfalso; simp_all; done)))

section
variable {T : Type} [FloatOps T]

omit [FloatOps T] in
theorem Le.indexArr {n : Nat} (loc dimprod : Fin n → Nat) (data : List T) :
    Le (indexArr loc dimprod data) (Unchecked.indexArr loc dimprod data) := by
  unfold Interpn.indexArr Unchecked.indexArr
  repeat le_step

omit [FloatOps T] in
theorem Le.indexArrFixedDims {n : Nat} (loc dimprod : Fin n → Nat) (data : List T) :
    Le (indexArrFixedDims loc dimprod data) (Unchecked.indexArrFixedDims loc dimprod data) := by
  unfold Interpn.indexArrFixedDims Unchecked.indexArrFixedDims
  repeat le_step

omit [FloatOps T] in
theorem Le.gridCell (grid : List T) (o : Nat) :
    Le (gridCell grid o) (Unchecked.gridCell grid o) := by
  unfold Interpn.gridCell Unchecked.gridCell
  repeat le_step

end

end Interpn
