import Verif.Spec.Special
import Verif.Lemmas.Api

/-! The checks of the constructors succeed on accepted data. -/

set_option autoImplicit false

namespace Interpn
open FloatOps

variable {T : Type} [FloatOps T] {N m : Nat}

theorem RegularAccepted.check {dims : Fin N → Nat} {steps : Fin N → T} {vals : List T}
    (h : RegularAccepted m dims steps vals) (hm : 1 ≤ m) (msg : String) :
    checkRegular m msg (List.ofFn dims) (List.ofFn steps) vals = .ok () := by
  have hlen : vals.length = (List.ofFn dims).prod := by rw [List.prod_ofFn]; exact h.len
  have hbig : ∀ d ∈ List.ofFn dims, m ≤ d := by
    intro d hd
    rw [List.mem_ofFn] at hd
    obtain ⟨k, rfl⟩ := hd
    exact h.big k
  refine checkRegular_eq_ok.2 ⟨productFits_of_pos (fun d hd => by have := hbig d hd; omega) ?_,
    hlen, hbig, ?_⟩
  · have := h.slice
    rw [isSlice_iff] at this
    rw [← hlen]
    simp only [isizeMax, usizeMax] at *
    omega
  · intro s hs
    rw [List.mem_ofFn] at hs
    obtain ⟨k, rfl⟩ := hs
    exact h.pos k

theorem RectilinearAccepted.check {grids : Fin N → List T} {vals : List T}
    (h : RectilinearAccepted m grids vals) (hm : 2 ≤ m) (msg : String) :
    checkRectilinear m msg (List.ofFn grids) vals = .ok () := by
  have hlen : vals.length = ((List.ofFn grids).map List.length).prod := by
    rw [map_length_ofFn, List.prod_ofFn]; exact h.len
  have hbig : ∀ g ∈ List.ofFn grids, m ≤ g.length := by
    intro d hd
    rw [List.mem_ofFn] at hd
    obtain ⟨k, rfl⟩ := hd
    exact h.big k
  refine (checkRectilinear_eq_ok hm).2 ⟨productFits_of_pos (fun d hd => ?_) ?_, hlen, hbig, ?_⟩
  · rw [List.mem_map] at hd
    obtain ⟨g, hg, rfl⟩ := hd
    have := hbig g hg; omega
  · have := h.slice
    rw [isSlice_iff] at this
    rw [← hlen]
    simp only [isizeMax, usizeMax] at *
    omega
  · intro g hg
    rw [List.mem_ofFn] at hg
    obtain ⟨k, rfl⟩ := hg
    obtain ⟨a, b, rest, hab, hlt⟩ := h.order k
    rw [hab]
    simpa [firstPairOk] using hlt

/-- If one axis rule always produces a `P` and every rule turns all-`P` data into a `P`, the
result is a `P`. -/
theorem axisByAxis_absorb {T : Type} (P : T → Prop) : ∀ {N : Nat}
    (op : Fin N → (Nat → T) → T) (g : (Fin N → Nat) → T)
    (_ : ∀ k f, (∀ i, P (f i)) → P (op k f)) (k : Fin N) (_ : ∀ f, P (op k f)),
    P (axisByAxis op g)
  | 0, _, _, _, k, _ => k.elim0
  | N + 1, op, g, hop, k, hk => by
    rw [axisByAxis]
    induction k using Fin.lastCases with
    | last => exact hk _
    | cast k =>
      refine hop _ _ fun i => axisByAxis_absorb P _ _ (fun k f => hop k.castSucc f) k hk

theorem Absorbing.lerp {P : T → Prop} (h : Absorbing P) (fma : Bool) {t : T} {v : Fin 2 → T}
    (hp : P t ∨ P (v 0) ∨ P (v 1)) : P (lerp fma t v) := by
  unfold Interpn.lerp
  have hd : P (v 0) ∨ P (v 1) → P (v 1 -. v 0) := fun h' => h.sub _ _ h'.symm
  split
  · apply h.mulAdd
    rcases hp with hp | hp | hp
    · exact .inl hp
    · exact .inr (.inr hp)
    · exact .inr (.inl (hd (.inr hp)))
  · apply h.add
    rcases hp with hp | hp | hp
    · exact .inr (h.mul _ _ (.inl hp))
    · exact .inl hp
    · exact .inr (h.mul _ _ (.inr (hd (.inr hp))))

theorem Absorbing.hermite {P : T → Prop} (h : Absorbing P) (fma : Bool) {t y0 dy k0 k1 : T}
    (hp : P t ∨ P y0) : P (hermite fma t y0 dy k0 k1) := by
  unfold Interpn.hermite
  simp only
  split
  · exact h.mulAdd _ _ _ (.inr hp)
  · apply h.add
    rcases hp with hp | hp
    · exact .inr (h.mul _ _ (.inl hp))
    · exact .inl hp

theorem Absorbing.linExtrap {P : T → Prop} (h : Absorbing P) (fma : Bool) {t y1 k1 : T}
    (hp : P t ∨ P y1) : P (linExtrap fma y1 k1 t) := by
  unfold Interpn.linExtrap
  split
  · exact h.mulAdd _ _ _ (.inr (hp.imp_left fun ht => h.sub _ _ (.inl ht)))
  · apply h.add
    rcases hp with hp | hp
    · exact .inr (h.mul _ _ (.inr (h.sub _ _ (.inl hp))))
    · exact .inl hp

theorem Absorbing.cubicInnerRectilinear {P : T → Prop} (h : Absorbing P) (fma fk fl : Bool)
    {v g : Fin 4 → T} {x : T} {sat : Saturation} {lin : Bool} (hp : P x ∨ ∀ i, P (v i)) :
    P (cubicInnerRectilinear fma fk fl v g x sat lin) := by
  have e : ∀ a b, P x → P ((x -. a) /. b) := fun a b hx => h.div _ _ (h.sub _ _ (.inl hx))
  have e' : ∀ a b, P x → P ((-. (x -. a)) /. b) := fun a b hx =>
    h.div _ _ (h.neg _ (h.sub _ _ (.inl hx)))
  have hy : ∀ i, P x ∨ P (v i) := fun i => hp.imp_right fun h => h i
  unfold Interpn.cubicInnerRectilinear
  cases sat <;> simp only
  case none => exact h.hermite _ ((hy 1).imp_left (e _ _))
  case insideLow => exact h.hermite _ ((hy 1).imp_left (e' _ _))
  case insideHigh => exact h.hermite _ ((hy 2).imp_left (e _ _))
  case outsideLow =>
    split
    · exact h.linExtrap _ ((hy 0).imp_left (e' _ _))
    · exact h.hermite _ ((hy 1).imp_left (e' _ _))
  case outsideHigh =>
    split
    · exact h.linExtrap _ ((hy 3).imp_left (e _ _))
    · exact h.hermite _ ((hy 2).imp_left (e _ _))

/-- No grid entry is below a NaN. -/
theorem SpecialValues.cellsBelow {nan nonfinite : T → Prop} (h : SpecialValues nan nonfinite)
    {grid : List T} {x : T} (hx : nan x) : cellsBelow grid x = 0 := by
  have hf : ∀ i (hi : i < grid.length), (grid[i] <. x) = false := fun i _ => h.lt_nan _ _ (.inr hx)
  exact partitionPoint_eq _ _ 0 (Nat.zero_le _) fun i hi => by simp [hf i hi]

theorem SpecialValues.linCell {nan nonfinite : T → Prop} (h : SpecialValues nan nonfinite)
    {grid : List T} {x : T} (hx : nan x) : linCell grid x = 0 := by
  unfold Interpn.linCell; rw [h.cellsBelow hx]; omega

theorem SpecialValues.rawCell {nan nonfinite : T → Prop} (h : SpecialValues nan nonfinite)
    {start step x : T} (hx : nonfinite x) : rawCell start step x = none :=
  h.toIsize_nonfinite _ (h.nonfinite_absorbing.floor _ (h.nonfinite_absorbing.div _ _
    (h.nonfinite_absorbing.sub _ _ (.inl hx))))

end Interpn
