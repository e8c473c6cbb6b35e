import Verif.Spec.DropAxis
import Verif.Lemmas.ExactFloat
import Verif.Lemmas.EvalCubic
import Verif.Lemmas.TensorAlg
import Verif.Lemmas.Api

/-! Cubic blends of equal values; axis-by-axis evaluation of data that do not depend on one index. -/

set_option autoImplicit false
set_option linter.unusedSectionVars false

namespace Interpn
open FloatOps

section
variable {T K : Type} [FloatOps T] [Field K] {val : T → K} {fin : T → Prop}

/-- A finite float that stands for 0. -/
def IsZero (val : T → K) (fin : T → Prop) (a : T) : Prop := fin a ∧ val a = 0

variable (h : ExactIfFloat val fin)
include h

namespace IsZero

theorem zero : IsZero val fin (zero : T) := h.zero

theorem of_eq {a b : T} {z : K} (ha : fin a ∧ val a = z) (hb : fin b ∧ val b = z) :
    IsZero val fin (a -. b) := by
  have := h.sub a b FloatOps.zero ha.1 hb.1 h.zero.1 (by rw [ha.2, hb.2, h.zero.2, sub_self])
  rwa [h.zero.2] at this

theorem neg {a : T} (ha : IsZero val fin a) : IsZero val fin (-. a) := by
  have := h.neg a ha.1
  rwa [ha.2, neg_zero] at this

theorem add {a b : T} (ha : IsZero val fin a) (hb : IsZero val fin b) : IsZero val fin (a +. b) := by
  have := h.add a b FloatOps.zero ha.1 hb.1 h.zero.1 (by rw [ha.2, hb.2, h.zero.2, add_zero])
  rwa [h.zero.2] at this

theorem sub {a b : T} (ha : IsZero val fin a) (hb : IsZero val fin b) : IsZero val fin (a -. b) :=
  of_eq h ha hb

theorem mulL {a c : T} (hc : fin c) (ha : IsZero val fin a) : IsZero val fin (c *. a) := by
  have := h.mul c a FloatOps.zero hc ha.1 h.zero.1 (by rw [ha.2, h.zero.2, mul_zero])
  rwa [h.zero.2] at this

theorem mulR {a c : T} (hc : fin c) (ha : IsZero val fin a) : IsZero val fin (a *. c) := by
  have := h.mul a c FloatOps.zero ha.1 hc h.zero.1 (by rw [ha.2, h.zero.2, zero_mul])
  rwa [h.zero.2] at this

theorem div {a c : T} (hc : fin c) (hc0 : val c ≠ 0) (ha : IsZero val fin a) :
    IsZero val fin (a /. c) := by
  have := h.div a c FloatOps.zero ha.1 hc h.zero.1 hc0 (by rw [ha.2, h.zero.2, zero_div])
  rwa [h.zero.2] at this

/-- Adding 0. -/
theorem addTo {a b : T} {z : K} (hb : fin b ∧ val b = z) (ha : IsZero val fin a) :
    fin (b +. a) ∧ val (b +. a) = z := by
  have := h.add b a b hb.1 ha.1 hb.1 (by rw [ha.2, add_zero])
  rwa [hb.2] at this

theorem fmaL {a b c : T} {z : K} (hc : fin c) (ha : IsZero val fin a) (hb : fin b ∧ val b = z) :
    fin (mulAdd c a b) ∧ val (mulAdd c a b) = z := by
  have := h.mulAdd c a b b hc ha.1 hb.1 hb.1 (by rw [ha.2, mul_zero, zero_add])
  rwa [hb.2] at this

theorem fmaR {a b c : T} {z : K} (hc : fin c) (ha : IsZero val fin a) (hb : fin b ∧ val b = z) :
    fin (mulAdd a c b) ∧ val (mulAdd a c b) = z := by
  have := h.mulAdd a c b b ha.1 hc hb.1 hb.1 (by rw [ha.2, zero_mul, zero_add])
  rwa [hb.2] at this

end IsZero
open IsZero

variable {z : K}

theorem hermite_const (fma : Bool) {t y0 dy k0 k1 : T} (ht : fin t) (hy : fin y0 ∧ val y0 = z)
    (hd : IsZero val fin dy) (h0 : IsZero val fin k0) (h1 : IsZero val fin k1) :
    fin (hermite fma t y0 dy k0 k1) ∧ val (hermite fma t y0 dy k0 k1) = z := by
  unfold hermite
  have ha := sub h h0 hd
  have hb := add h (neg h h1) hd
  have hc1 := add h hd ha
  have hc2 := sub h hb (add h ha ha)
  have hc3 := sub h ha hb
  cases fma
  · exact addTo h hy (mulL h ht (add h hc1 (mulL h ht (add h hc2 (mulL h ht hc3)))))
  · exact fmaR h ht (fmaR h ht (fmaR h ht hc3 hc2) hc1) hy

theorem naturalK1_const (fma : Bool) {c dy k0 : T} (hc : fin c) (hd : IsZero val fin dy)
    (h0 : IsZero val fin k0) : IsZero val fin (naturalK1 fma c dy k0) := by
  unfold naturalK1
  cases fma
  · exact sub h (mulL h hc hd) h0
  · exact fmaL h hc hd (neg h h0)

theorem linExtrap_const (fma : Bool) {t y1 k1 : T} (ht : UsablePosition fin t) (hy : fin y1 ∧ val y1 = z)
    (h1 : IsZero val fin k1) :
    fin (linExtrap fma y1 k1 t) ∧ val (linExtrap fma y1 k1 t) = z := by
  unfold linExtrap
  cases fma
  · exact addTo h hy (mulR h ht.2 h1)
  · exact fmaR h ht.2 h1 hy

theorem centeredDiff_const (fma : Bool) {y0 y1 y2 h01 h12 : T} (e0 : fin y0 ∧ val y0 = z)
    (e1 : fin y1 ∧ val y1 = z) (e2 : fin y2 ∧ val y2 = z) (f01 : fin h01) (n01 : val h01 ≠ 0)
    (f12 : fin h12) (n12 : val h12 ≠ 0) (ha : fin (h01 /. (h01 +. h12)))
    (hc : fin (h12 /. (h12 +. h01))) :
    IsZero val fin (centeredDiff fma y0 y1 y2 h01 h12) := by
  unfold centeredDiff
  have hb := div h f12 n12 (of_eq h e2 e1)
  have hd := mulL h hc (div h f01 n01 (of_eq h e1 e0))
  cases fma
  · exact add h (mulL h ha hb) hd
  · exact fmaL h ha hb hd

theorem cubicInnerRegular_const (fma fl : Bool) {t : T} (sat : Saturation) (lin : Bool)
    {v : Fin 4 → T} (hv : ∀ p, fin (v p) ∧ val (v p) = z)
    (h2 : fin ((one : T) +. one) ∧ val ((one : T) +. one) ≠ 0)
    (ht : fin t) (ht1 : UsablePosition fin (t -. one)) (htn : UsablePosition fin (-. t)) :
    fin (cubicInnerRegular fma fl v t sat lin) ∧ val (cubicInnerRegular fma fl v t sat lin) = z := by
  have hd := fun a b => of_eq h (hv a) (hv b)
  have hq := fun a b => div h h2.1 h2.2 (hd a b)
  have hqn := fun a b => div h h2.1 h2.2 (neg h (hd a b))
  unfold cubicInnerRegular
  cases sat
  · exact hermite_const h _ ht (hv 1) (hd 2 1) (hq 2 0) (hq 3 1)
  · exact hermite_const h _ htn.1 (hv 1) (hd 0 1) (hqn 2 0) (naturalK1_const h _ h2.1 (hd 0 1) (hqn 2 0))
  · have h1 := naturalK1_const h fl h2.1 (hd 0 1) (hqn 2 0)
    cases lin
    · exact hermite_const h _ htn.1 (hv 1) (hd 0 1) (hqn 2 0) h1
    · exact linExtrap_const h _ htn (hv 0) h1
  · exact hermite_const h _ ht1.1 (hv 2) (hd 3 2) (hq 3 1) (naturalK1_const h _ h2.1 (hd 3 2) (hq 3 1))
  · have h1 := naturalK1_const h fma h2.1 (hd 3 2) (hq 3 1)
    cases lin
    · exact hermite_const h _ ht1.1 (hv 2) (hd 3 2) (hq 3 1) h1
    · exact linExtrap_const h _ ht1 (hv 3) h1

theorem cubicInnerRectilinear_const (fma fk fl : Bool) {g : Fin 4 → T} {x : T} (sat : Saturation)
    (lin : Bool) {v : Fin 4 → T} (hv : ∀ p, fin (v p) ∧ val (v p) = z)
    (h2 : fin ((one : T) +. one))
    (ht : ∀ a b : Fin 4, b.val = a.val + 1 → UsablePosition fin ((x -. g a) /. (g b -. g a)) ∧
      UsablePosition fin ((-. (x -. g b)) /. (g b -. g a)))
    (hr : ∀ a b c : Fin 4, b.val = a.val + 1 → c.val = b.val + 1 →
      UsableRatio val fin ((g b -. g a) /. (g c -. g b)) ∧
      UsableRatio val fin ((g c -. g b) /. (g b -. g a))) :
    fin (cubicInnerRectilinear fma fk fl v g x sat lin) ∧
      val (cubicInnerRectilinear fma fk fl v g x sat lin) = z := by
  have hd := fun a b => of_eq h (hv a) (hv b)
  have n1 : val (one : T) ≠ 0 := by rw [h.one.2]; exact one_ne_zero
  have hlow : ∀ (a b c : Fin 4) {r : T}, UsableRatio val fin r →
      IsZero val fin (centeredDiff fma (v a) (v b) (v c) r one) := fun a b c r hr =>
    centeredDiff_const h fma (hv a) (hv b) (hv c) hr.finite hr.ne h.one.1 n1 hr.low hr.high
  have hhigh : ∀ (a b c : Fin 4) {r : T}, UsableRatio val fin r →
      IsZero val fin (centeredDiff fma (v a) (v b) (v c) one r) := fun a b c r hr =>
    centeredDiff_const h fma (hv a) (hv b) (hv c) h.one.1 n1 hr.finite hr.ne hr.high hr.low
  have r012 := hr 0 1 2 rfl rfl
  have r123 := hr 1 2 3 rfl rfl
  have t01 := ht 0 1 rfl
  have t12 := ht 1 2 rfl
  have t23 := ht 2 3 rfl
  unfold cubicInnerRectilinear
  cases sat
  · exact hermite_const h _ t12.1.1 (hv 1) (hd 2 1) (hlow 0 1 2 r012.1) (hhigh 1 2 3 r123.2)
  · have h0 := neg h (hhigh 0 1 2 r012.2)
    exact hermite_const h _ t01.2.1 (hv 1) (hd 0 1) h0 (naturalK1_const h _ h2 (hd 0 1) h0)
  · have h0 := neg h (hhigh 0 1 2 r012.2)
    have h1 := naturalK1_const h false h2 (hd 0 1) h0
    cases lin
    · exact hermite_const h _ t01.2.1 (hv 1) (hd 0 1) h0 h1
    · exact linExtrap_const h _ t01.2 (hv 0) h1
  · have h0 := hlow 1 2 3 r123.1
    exact hermite_const h _ t23.1.1 (hv 2) (hd 3 2) h0 (naturalK1_const h _ h2 (hd 3 2) h0)
  · have h0 := hlow 1 2 3 r123.1
    have h1 := naturalK1_const h false h2 (hd 3 2) h0
    cases lin
    · exact hermite_const h _ t23.1.1 (hv 2) (hd 3 2) h0 h1
    · exact linExtrap_const h _ t23.1 (hv 3) h1

/-! ### The rules along an axis -/

theorem linRule_const (fma : Bool) {grid : List T} {x : T} (hl : 2 ≤ grid.length)
    (hp : PositionsFinite fin grid x) {f : Nat → T}
    (hf : ∀ i, i < grid.length → fin (f i) ∧ val (f i) = z) :
    fin (linRule fma grid x f) ∧ val (linRule fma grid x f) = z := by
  have hb := linCell_bound hl x
  refine lerp_const h fma ?_ (hf _ (by simp; omega)) (hf _ (by simp; omega))
  refine (hp (linCell grid x) _ _ ?_ ?_).1.1
  · dsimp only; rw [List.getElem?_eq_getElem (by omega), List.getD_eq_getElem _ _ (by omega)]
  · dsimp only; rw [List.getElem?_eq_getElem (by omega), List.getD_eq_getElem _ _ (by omega)]

theorem cubRectRule_const (fma fk fl lin : Bool) {grid : List T} {x : T} (hl : 4 ≤ grid.length)
    (h2 : fin ((one : T) +. one))
    (hp : PositionsFinite fin grid x) (hr : RatiosUsable val fin grid) {f : Nat → T}
    (hf : ∀ i, i < grid.length → fin (f i) ∧ val (f i) = z) :
    fin (cubRectRule fma fk fl lin grid x f) ∧ val (cubRectRule fma fk fl lin grid x f) = z := by
  have hb := cubCell_bound hl x
  have hget : ∀ p : Fin 4, grid[cubCell grid x + p.val]? =
      some (grid.getD (cubCell grid x + p.val) zero) := fun p => by
    have := p.isLt
    rw [List.getElem?_eq_getElem (by omega), List.getD_eq_getElem _ _ (by omega)]
  refine cubicInnerRectilinear_const h fma fk fl _ lin
    (fun p => hf _ (by have := p.isLt; omega)) h2 ?_ ?_
  · intro a b hab
    exact hp (cubCell grid x + a.val) _ _ (hget a) (by rw [Nat.add_assoc, ← hab]; exact hget b)
  · intro a b c hab hbc
    exact hr (cubCell grid x + a.val) _ _ _ (hget a) (by rw [Nat.add_assoc, ← hab]; exact hget b)
      (by rw [show cubCell grid x + a.val + 2 = cubCell grid x + c.val by omega]; exact hget c)

theorem linReg_const (fma fmaLoc : Bool) {dim : Nat} {start step x : T} (hl : 2 ≤ dim)
    (hp : RegularPositionsFinite fin dim start step x) {a : Nat × T}
    (ha : linRegAxis fmaLoc dim start step x = some a) {f : Nat → T}
    (hf : ∀ i, i < dim → fin (f i) ∧ val (f i) = z) :
    fin (lerp fma a.2 fun p => f (a.1 + p.val)) ∧ val (lerp fma a.2 fun p => f (a.1 + p.val)) = z := by
  have hb := linRegAxis_bound hl ha
  refine lerp_const h fma ?_ (hf _ (by simp; omega)) (hf _ (by simp; omega))
  unfold linRegAxis at ha
  split at ha
  · cases ha
  · split at ha
    · cases ha
    · next fI hI =>
      rw [Option.some.injEq] at ha
      subst ha
      refine (hp _ fI _ (by simp only at hb; omega) hI ?_).1.1
      cases fmaLoc
      · exact .inl rfl
      · exact .inr rfl

theorem cubReg_const (fma fl lin : Bool) {dim : Nat} {start step x : T} (hl : 4 ≤ dim)
    (h2 : fin ((one : T) +. one) ∧ val ((one : T) +. one) ≠ 0)
    (hp : RegularPositionsFinite fin dim start step x) {a : Nat × Saturation × T}
    (ha : cubRegAxis dim start step x = .ok a) {f : Nat → T}
    (hf : ∀ i, i < dim → fin (f i) ∧ val (f i) = z) :
    fin (cubRegRule fma fl lin a f) ∧ val (cubRegRule fma fl lin a f) = z := by
  have hb := cubRegAxis_bound hl ha
  have hw : UsablePosition fin a.2.2 ∧ UsablePosition fin (a.2.2 -. one) ∧
      UsablePosition fin (-. a.2.2) := by
    unfold cubRegAxis at ha
    split at ha
    · cases ha
    · split at ha
      · cases ha
      · split at ha
        · cases ha
        · next fI hI =>
          rw [Res.ok.injEq] at ha
          subst ha
          exact hp _ fI _ (by simp only at hb; omega) hI (.inl rfl)
  exact cubicInnerRegular_const h fma fl _ lin (fun p => hf _ (by have := p.isLt; omega)) h2
    hw.1.1 hw.2.1 hw.2.2

end

/-! ### Axis by axis -/

/-- Data that do not depend on the index of axis `j`, whose rule respects `R`. -/
theorem axisByAxis_drop {T T' : Type} (R : T → T' → Prop) : ∀ {N : Nat} (j : Fin (N + 1))
    (S : Fin (N + 1) → Nat → Prop) (op : Fin (N + 1) → (Nat → T) → T)
    (op' : Fin N → (Nat → T') → T') (g : (Fin (N + 1) → Nat) → T) (g' : (Fin N → Nat) → T')
    (_ : ∀ k f f', (∀ i, S (j.succAbove k) i → R (f i) (f' i)) → R (op (j.succAbove k) f) (op' k f'))
    (_ : ∀ f c, (∀ i, S j i → R (f i) c) → R (op j f) c)
    (_ : ∀ loc, (∀ k, S k (loc k)) → R (g loc) (g' fun k => loc (j.succAbove k))),
    R (axisByAxis op g) (axisByAxis op' g')
  | N, j, S, op, op', g, g', hop, hj, hg => by
    by_cases hlast : j = Fin.last N
    · subst hlast
      rw [axisByAxis]
      refine hj _ _ fun i hi => ?_
      simp only [Fin.succAbove_last] at hop hg
      refine axisByAxis_rel R (fun k => S k.castSucc) _ _ _ _ hop fun loc hl => ?_
      have := hg (Fin.snoc (α := fun _ => Nat) loc i) (by
        intro k
        refine Fin.lastCases ?_ (fun k => ?_) k
        · rw [Fin.snoc_last]; exact hi
        · rw [Fin.snoc_castSucc (α := fun _ => Nat)]; exact hl k)
      simpa only [Fin.snoc_castSucc (α := fun _ => Nat)] using this
    · obtain ⟨j', rfl⟩ := Fin.exists_castSucc_eq.2 hlast
      match N, j' with
      | 0, j' => exact j'.elim0
      | N + 1, j' =>
        rw [axisByAxis, axisByAxis]
        have := hop (Fin.last N)
        rw [Fin.succAbove_ne_last_last hlast] at this
        refine this _ _ fun i hi => ?_
        refine axisByAxis_drop R j' (fun k => S k.castSucc) _ _ _ _ ?_ hj ?_
        · intro k f f' hf
          have := hop k.castSucc f f'
          rw [Fin.castSucc_succAbove_castSucc] at this
          exact this hf
        · intro loc hl
          have := hg (Fin.snoc (α := fun _ => Nat) loc i) (by
            intro k
            refine Fin.lastCases ?_ (fun k => ?_) k
            · rw [Fin.snoc_last]; exact hi
            · rw [Fin.snoc_castSucc (α := fun _ => Nat)]; exact hl k)
          refine cast (congrArg (fun l => R _ (g' l)) (funext fun k => ?_)) this
          refine Fin.lastCases ?_ (fun k => ?_) k
          · rw [Fin.succAbove_ne_last_last hlast, Fin.snoc_last, Fin.snoc_last]
          · rw [Fin.castSucc_succAbove_castSucc, Fin.snoc_castSucc (α := fun _ => Nat),
              Fin.snoc_castSucc (α := fun _ => Nat)]

end Interpn
