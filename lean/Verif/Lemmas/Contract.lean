import Verif.Spec.Contract
import Verif.Lemmas.Api
import Verif.Lemmas.TensorAlg
import Verif.Lemmas.Accept

/-! Axis-by-axis evaluation starts with the first axis. -/

set_option autoImplicit false
set_option linter.unusedSectionVars false

namespace Interpn
open FloatOps

theorem axisByAxis_first {T : Type} : ∀ {N : Nat} (op : Fin (N + 1) → (Nat → T) → T)
    (g : (Fin (N + 1) → Nat) → T),
    axisByAxis op g = axisByAxis (fun k : Fin N => op k.succ) fun loc =>
      op 0 fun i => g (Fin.cons i loc)
  | 0, op, g => by
    rw [axisByAxis, axisByAxis]
    show op 0 _ = op 0 _
    congr 1; funext i
    rw [axisByAxis]
    congr 1; funext k
    have : k = Fin.last 0 := by ext; simp
    rw [this, Fin.snoc_last]; rfl
  | N + 1, op, g => by
    rw [axisByAxis]
    conv_rhs => rw [axisByAxis]
    rw [Fin.succ_last]
    congr 1; funext i
    rw [axisByAxis_first]
    simp only [Fin.succ_castSucc]
    congr 1; funext loc
    show op 0 _ = op 0 _
    congr 1; funext i0
    congr 1
    exact (Fin.cons_snoc_eq_snoc_cons i0 loc i).symm

/-- Rules that read the first `dims k` entries only; `g'` holds the results along the first axis. -/
theorem axisByAxis_contract {T : Type} {N : Nat} {dims : Fin (N + 1) → Nat}
    {op : Fin (N + 1) → (Nat → T) → T}
    (hop : ∀ k f f', (∀ i, i < dims k → f i = f' i) → op k f = op k f')
    {g : (Fin (N + 1) → Nat) → T} {g' : (Fin N → Nat) → T}
    (hg : ∀ loc, (∀ k : Fin N, loc k < dims k.succ) → g' loc = op 0 fun i => g (Fin.cons i loc)) :
    axisByAxis op g = axisByAxis (fun k : Fin N => op k.succ) g' := by
  rw [axisByAxis_first]
  refine axisByAxis_congr (fun k i => i < dims k.succ) _ _ _ _ (fun k f f' h => hop _ _ _ h)
    fun loc h => (hg loc h).symm

variable {T : Type} [FloatOps T] {N : Nat}

theorem firstLine_length (n : Nat) (g : (Fin (N + 1) → Nat) → T) (loc : Fin N → Nat) :
    (firstLine n g loc).length = n := by simp [firstLine]

/-- A one-dimensional table holding a line. -/
theorem valAt_firstLine (n : Nat) (g : (Fin (N + 1) → Nat) → T) (loc : Fin N → Nat)
    (l : Fin 1 → Nat) (hl : l 0 < n) :
    valAt zero (fun _ : Fin 1 => n) (firstLine n g loc) l = g (Fin.cons (l 0) loc) := by
  have h := samples_valAt zero (fun _ : Fin 1 => n) (firstLine n g loc)
    (by rw [firstLine_length]; simp) l (fun k => by rwa [Subsingleton.elim k 0])
  have hc : cIndex (fun _ : Fin 1 => n) l = l 0 := by simp [cIndex]
  rw [hc] at h
  unfold firstLine at h
  rw [List.getElem?_ofFn, dif_pos hl, Option.some.injEq] at h
  exact h.symm

theorem axisByAxis_line {n : Nat} {op : (Nat → T) → T}
    (hop : ∀ f f', (∀ i, i < n → f i = f' i) → op f = op f')
    (g : (Fin (N + 1) → Nat) → T) (loc : Fin N → Nat) :
    axisByAxis (fun _ : Fin 1 => op) (valAt zero (fun _ : Fin 1 => n) (firstLine n g loc)) =
      op fun i => g (Fin.cons i loc) := by
  rw [axisByAxis]
  refine hop _ _ fun i hi => ?_
  rw [axisByAxis, valAt_firstLine _ _ _ _ (by exact hi)]
  rfl

theorem firstLine_slice {m : Nat} {dims : Fin (N + 1) → Nat} {vals : List T} (hm : 0 < m)
    (hs : IsSlice vals) (hl : vals.length = ∏ k, dims k) (hb : ∀ k, m ≤ dims k)
    (g : (Fin (N + 1) → Nat) → T) (loc : Fin N → Nat) : IsSlice (firstLine (dims 0) g loc) := by
  have hv : GoodVals m dims vals := ⟨hl, hb, by
    rw [isSlice_iff] at hs
    simp only [isizeMax, usizeMax] at *; omega⟩
  have := hv.dim_le hm hs 0
  rw [isSlice_iff, firstLine_length]
  exact this

theorem firstLine_rectilinear {m : Nat} (hm : 0 < m) {grids : Fin (N + 1) → List T} {vals : List T}
    (hG : RectilinearAccepted m grids vals) (g : (Fin (N + 1) → Nat) → T) (loc : Fin N → Nat) :
    RectilinearAccepted m (fun _ : Fin 1 => grids 0) (firstLine (grids 0).length g loc) :=
  ⟨firstLine_slice (dims := fun k => (grids k).length) hm hG.slice hG.len hG.big g loc,
    by rw [firstLine_length]; simp, fun _ => hG.big 0, fun _ => hG.order 0⟩

theorem firstLine_regular {m : Nat} (hm : 0 < m) {dims : Fin (N + 1) → Nat}
    {steps : Fin (N + 1) → T} {vals : List T}
    (hG : RegularAccepted m dims steps vals) (g : (Fin (N + 1) → Nat) → T) (loc : Fin N → Nat) :
    RegularAccepted m (fun _ : Fin 1 => dims 0) (fun _ => steps 0) (firstLine (dims 0) g loc) :=
  ⟨firstLine_slice hm hG.slice hG.len hG.big g loc,
    by rw [firstLine_length]; simp, fun _ => hG.big 0, fun _ => hG.pos 0⟩

theorem samples_congr {dims : Fin N → Nat} {vals : List T} (hl : vals.length = ∏ k, dims k)
    {g : (Fin N → Nat) → T} (hg : Samples dims vals g) (loc : Fin N → Nat)
    (hb : ∀ k, loc k < dims k) : valAt zero dims vals loc = g loc := by
  have h := samples_valAt zero dims vals hl loc hb
  rw [hg loc hb, Option.some.injEq] at h
  exact h.symm

/-! Rules read the nodes of their axis only. -/

theorem linRule_congr (fma : Bool) {grid : List T} (hl : 2 ≤ grid.length) (x : T) {u u' : Nat → T}
    (h : ∀ i, i < grid.length → u i = u' i) : linRule fma grid x u = linRule fma grid x u' := by
  have := linCell_bound hl x
  unfold linRule
  congr 1; funext p; exact h _ (by omega)

theorem cubRectRule_congr (fma fk fl lin : Bool) {grid : List T} (hl : 4 ≤ grid.length) (x : T)
    {u u' : Nat → T} (h : ∀ i, i < grid.length → u i = u' i) :
    cubRectRule fma fk fl lin grid x u = cubRectRule fma fk fl lin grid x u' := by
  have := cubCell_bound hl x
  unfold cubRectRule
  congr 1; funext p; exact h _ (by omega)

end Interpn
