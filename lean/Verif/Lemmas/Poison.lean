import Verif.Lemmas.Accept
import Mathlib.Tactic.FinCases

/-! Which nodes of a cell influence the axis rules, and propagation of special stored values. -/

set_option autoImplicit false

namespace Interpn
open FloatOps

/-- A `P` at one relevant node makes the result a `P`. -/
theorem axisByAxis_poison {T : Type} (P : T → Prop) : ∀ {N : Nat} (S : Fin N → Nat → Prop)
    (op : Fin N → (Nat → T) → T) (g : (Fin N → Nat) → T)
    (_ : ∀ k f i, S k i → P (f i) → P (op k f)) (loc : Fin N → Nat) (_ : ∀ k, S k (loc k))
    (_ : P (g loc)), P (axisByAxis op g)
  | 0, _, _, g, _, loc, _, hg => by
    rw [axisByAxis]
    have : (fun k : Fin 0 => k.elim0) = loc := funext fun k => k.elim0
    rw [this]; exact hg
  | N + 1, S, op, g, hop, loc, hloc, hg => by
    rw [axisByAxis]
    refine hop _ _ (loc (Fin.last N)) (hloc _) ?_
    refine axisByAxis_poison P (fun k => S k.castSucc) _ _ (fun k => hop k.castSucc)
      (fun k => loc k.castSucc) (fun k => hloc _) ?_
    have : (Fin.snoc (α := fun _ => Nat) (fun k => loc k.castSucc) (loc (Fin.last N)) :
        Fin (N + 1) → Nat) = loc := Fin.snoc_init_self loc
    rw [this]; exact hg

/-- First of the four nodes used by the cubic rule. -/
def stencilOff : Saturation → Nat
  | .insideHigh | .outsideHigh => 1
  | _ => 0

/-- Number of nodes used by the cubic rule. -/
def stencilLen (s : Saturation) : Nat := if s = .none then 4 else 3

theorem stencil_bound (s : Saturation) : stencilOff s + stencilLen s ≤ 4 := by
  cases s <;> decide

variable {T : Type} [FloatOps T]

theorem cubicInnerRegular_congr (fma fl lin : Bool) {v v' : Fin 4 → T} {t : T} {sat : Saturation}
    (h : ∀ i : Fin 4, stencilOff sat ≤ i → i < stencilOff sat + stencilLen sat → v i = v' i) :
    cubicInnerRegular fma fl v t sat lin = cubicInnerRegular fma fl v' t sat lin := by
  cases sat
  case none =>
    have : v = v' := funext fun i => h i (Nat.zero_le _) i.isLt
    rw [this]
  all_goals
    unfold cubicInnerRegular
    simp only
  case insideLow => rw [h 0 (by decide) (by decide), h 1 (by decide) (by decide), h 2 (by decide) (by decide)]
  case outsideLow => rw [h 0 (by decide) (by decide), h 1 (by decide) (by decide), h 2 (by decide) (by decide)]
  case insideHigh => rw [h 1 (by decide) (by decide), h 2 (by decide) (by decide), h 3 (by decide) (by decide)]
  case outsideHigh => rw [h 1 (by decide) (by decide), h 2 (by decide) (by decide), h 3 (by decide) (by decide)]

theorem cubicInnerRectilinear_congr (fma fk fl : Bool) {lin : Bool} {v v' g : Fin 4 → T} {x : T}
    {sat : Saturation}
    (h : ∀ i : Fin 4, stencilOff sat ≤ i → i < stencilOff sat + stencilLen sat → v i = v' i) :
    cubicInnerRectilinear fma fk fl v g x sat lin =
      cubicInnerRectilinear fma fk fl v' g x sat lin := by
  cases sat
  case none =>
    have : v = v' := funext fun i => h i (Nat.zero_le _) i.isLt
    rw [this]
  all_goals
    unfold cubicInnerRectilinear
    simp only
  case insideLow => rw [h 0 (by decide) (by decide), h 1 (by decide) (by decide), h 2 (by decide) (by decide)]
  case outsideLow => rw [h 0 (by decide) (by decide), h 1 (by decide) (by decide), h 2 (by decide) (by decide)]
  case insideHigh => rw [h 1 (by decide) (by decide), h 2 (by decide) (by decide), h 3 (by decide) (by decide)]
  case outsideHigh => rw [h 1 (by decide) (by decide), h 2 (by decide) (by decide), h 3 (by decide) (by decide)]

theorem Absorbing.hermite_all {P : T → Prop} (h : Absorbing P) (fma : Bool) {t y0 dy k0 k1 : T}
    (hp : P y0 ∨ P dy ∨ P k0 ∨ P k1) : P (Interpn.hermite fma t y0 dy k0 k1) := by
  have ha : P dy ∨ P k0 → P (k0 -. dy) := fun h' => h.sub _ _ h'.symm
  have hc1 : P dy ∨ P k0 → P (dy +. (k0 -. dy)) := fun h' => h.add _ _ (.inr (ha h'))
  have hb : P k1 → P ((-. k1) +. dy) := fun h' => h.add _ _ (.inl (h.neg _ h'))
  rcases hp with hp | hp
  · exact h.hermite fma (.inr hp)
  have hp : (P dy ∨ P k0) ∨ P k1 := by tauto
  unfold Interpn.hermite
  simp only
  split
  · apply h.mulAdd; left
    apply h.mulAdd
    rcases hp with hp | hp
    · exact .inr (.inr (hc1 hp))
    · exact .inl (h.mulAdd _ _ _ (.inl (h.sub _ _ (.inr (hb hp)))))
  · apply h.add; right; apply h.mul; right
    apply h.add
    rcases hp with hp | hp
    · exact .inl (hc1 hp)
    · right; apply h.mul; right; apply h.add; left
      exact h.sub _ _ (.inl (hb hp))

theorem Absorbing.naturalK1 {P : T → Prop} (h : Absorbing P) (fma : Bool) {two dy k0 : T}
    (hp : P dy ∨ P k0) : P (Interpn.naturalK1 fma two dy k0) := by
  unfold Interpn.naturalK1
  split
  · exact h.mulAdd _ _ _ (.inr (hp.imp_right (h.neg _)))
  · exact h.sub _ _ (hp.imp_left fun h' => h.mul _ _ (.inr h'))

theorem Absorbing.linExtrap_all {P : T → Prop} (h : Absorbing P) (fma : Bool) {t y1 k1 : T}
    (hp : P y1 ∨ P k1) : P (Interpn.linExtrap fma y1 k1 t) := by
  rcases hp with hp | hp
  · exact h.linExtrap fma (.inr hp)
  · unfold Interpn.linExtrap
    split
    · exact h.mulAdd _ _ _ (.inl hp)
    · exact h.add _ _ (.inr (h.mul _ _ (.inl hp)))

theorem Absorbing.centeredDiff {P : T → Prop} (h : Absorbing P) (fma : Bool)
    {y0 y1 y2 h01 h12 : T} (hp : P y0 ∨ P y1 ∨ P y2) : P (Interpn.centeredDiff fma y0 y1 y2 h01 h12) := by
  have hb : P y1 ∨ P y2 → P ((y2 -. y1) /. h12) := fun h' => h.div _ _ (h.sub _ _ h'.symm)
  have hd : P y0 ∨ P y1 → P ((y1 -. y0) /. h01) := fun h' => h.div _ _ (h.sub _ _ h'.symm)
  unfold Interpn.centeredDiff
  simp only
  rcases hp with hp | hp
  · split
    · exact h.mulAdd _ _ _ (.inr (.inr (h.mul _ _ (.inr (hd (.inl hp))))))
    · exact h.add _ _ (.inr (h.mul _ _ (.inr (hd (.inl hp)))))
  · split
    · exact h.mulAdd _ _ _ (.inr (.inl (hb hp)))
    · exact h.add _ _ (.inl (h.mul _ _ (.inr (hb hp))))

/-- The common shape of the boundary branches: with `y0`, `dy` and `k0` covering the three nodes,
both the cubic and the linear extension are contaminated. -/
theorem Absorbing.boundary {P : T → Prop} (h : Absorbing P) (fma fk fl : Bool)
    {t two y0 y1 dy k0 : T} (lin : Bool) (hp : P dy ∨ P k0) :
    P (Interpn.hermite fma t y0 dy k0 (Interpn.naturalK1 fk two dy k0)) ∧
    P (if lin then Interpn.linExtrap fl y1 (Interpn.naturalK1 fk two dy k0) t
      else Interpn.hermite fma t y0 dy k0 (Interpn.naturalK1 fk two dy k0)) := by
  have h1 : P (Interpn.hermite fma t y0 dy k0 (Interpn.naturalK1 fk two dy k0)) :=
    h.hermite_all _ (by tauto)
  refine ⟨h1, ?_⟩
  split
  · exact h.linExtrap_all _ (.inr (h.naturalK1 _ hp))
  · exact h1

theorem Absorbing.cubicInnerRegular_val {P : T → Prop} (h : Absorbing P) (fma fl lin : Bool)
    {v : Fin 4 → T} {t : T} {sat : Saturation} {i : Fin 4} (h1 : stencilOff sat ≤ i.val)
    (h2 : i.val < stencilOff sat + stencilLen sat) (hi : P (v i)) :
    P (Interpn.cubicInnerRegular fma fl v t sat lin) := by
  have hs : ∀ {a b : Fin 4}, P (v a) ∨ P (v b) → P (v a -. v b) := fun h' => h.sub _ _ h'
  unfold Interpn.cubicInnerRegular
  cases sat <;> simp only
  case none =>
    have : P (v 1) ∨ (P (v 2) ∨ P (v 1)) ∨ (P (v 2) ∨ P (v 0)) ∨ (P (v 3) ∨ P (v 1)) := by
      fin_cases i <;> simp only at hi <;> tauto
    refine h.hermite_all _ ?_
    rcases this with h' | h' | h' | h'
    · exact .inl h'
    · exact .inr (.inl (hs h'))
    · exact .inr (.inr (.inl (h.div _ _ (hs h'))))
    · exact .inr (.inr (.inr (h.div _ _ (hs h'))))
  case insideLow =>
    have : (P (v 0) ∨ P (v 1)) ∨ (P (v 2) ∨ P (v 0)) := by
      fin_cases i <;> simp [stencilOff, stencilLen] at h1 h2 hi <;> tauto
    exact (h.boundary fma fma fma lin (y1 := v 0) (this.imp hs fun h' => h.div _ _ (h.neg _ (hs h')))).1
  case outsideLow =>
    have : (P (v 0) ∨ P (v 1)) ∨ (P (v 2) ∨ P (v 0)) := by
      fin_cases i <;> simp [stencilOff, stencilLen] at h1 h2 hi <;> tauto
    exact (h.boundary fma fl fma lin (this.imp hs fun h' => h.div _ _ (h.neg _ (hs h')))).2
  case insideHigh =>
    have : (P (v 3) ∨ P (v 2)) ∨ (P (v 3) ∨ P (v 1)) := by
      fin_cases i <;> simp [stencilOff, stencilLen] at h1 h2 hi <;> tauto
    exact (h.boundary fma fma fma lin (y1 := v 0) (this.imp hs fun h' => h.div _ _ (hs h'))).1
  case outsideHigh =>
    have : (P (v 3) ∨ P (v 2)) ∨ (P (v 3) ∨ P (v 1)) := by
      fin_cases i <;> simp [stencilOff, stencilLen] at h1 h2 hi <;> tauto
    exact (h.boundary fma fma fma lin (this.imp hs fun h' => h.div _ _ (hs h'))).2

theorem Absorbing.cubicInnerRectilinear_val {P : T → Prop} (h : Absorbing P) (fma fk fl : Bool)
    {lin : Bool} {v g : Fin 4 → T} {x : T} {sat : Saturation} {i : Fin 4}
    (h1 : stencilOff sat ≤ i.val) (h2 : i.val < stencilOff sat + stencilLen sat) (hi : P (v i)) :
    P (Interpn.cubicInnerRectilinear fma fk fl v g x sat lin) := by
  have hs : ∀ {a b : Fin 4}, P (v a) ∨ P (v b) → P (v a -. v b) := fun h' => h.sub _ _ h'
  unfold Interpn.cubicInnerRectilinear
  cases sat <;> simp only
  case none =>
    have : P (v 1) ∨ (P (v 2) ∨ P (v 1)) ∨ (P (v 0) ∨ P (v 1) ∨ P (v 2)) ∨
        (P (v 1) ∨ P (v 2) ∨ P (v 3)) := by
      fin_cases i <;> simp only at hi <;> tauto
    refine h.hermite_all _ ?_
    rcases this with h' | h' | h' | h'
    · exact .inl h'
    · exact .inr (.inl (hs h'))
    · exact .inr (.inr (.inl (h.centeredDiff _ h')))
    · exact .inr (.inr (.inr (h.centeredDiff _ h')))
  case insideLow =>
    have : (P (v 0) ∨ P (v 1)) ∨ (P (v 0) ∨ P (v 1) ∨ P (v 2)) := by
      fin_cases i <;> simp [stencilOff, stencilLen] at h1 h2 hi <;> tauto
    exact (h.boundary fma fk fma lin (y1 := v 0)
      (this.imp hs fun h' => h.neg _ (h.centeredDiff _ h'))).1
  case outsideLow =>
    have : (P (v 0) ∨ P (v 1)) ∨ (P (v 0) ∨ P (v 1) ∨ P (v 2)) := by
      fin_cases i <;> simp [stencilOff, stencilLen] at h1 h2 hi <;> tauto
    exact (h.boundary fma false fl lin (this.imp hs fun h' => h.neg _ (h.centeredDiff _ h'))).2
  case insideHigh =>
    have : (P (v 3) ∨ P (v 2)) ∨ (P (v 1) ∨ P (v 2) ∨ P (v 3)) := by
      fin_cases i <;> simp [stencilOff, stencilLen] at h1 h2 hi <;> tauto
    exact (h.boundary fma fk fma lin (y1 := v 0) (this.imp hs fun h' => h.centeredDiff _ h')).1
  case outsideHigh =>
    have : (P (v 3) ∨ P (v 2)) ∨ (P (v 1) ∨ P (v 2) ∨ P (v 3)) := by
      fin_cases i <;> simp [stencilOff, stencilLen] at h1 h2 hi <;> tauto
    exact (h.boundary fma false fl lin (this.imp hs fun h' => h.centeredDiff _ h')).2

end Interpn
