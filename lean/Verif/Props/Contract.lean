import Verif.Lemmas.Contract
import Verif.Props.DropAxis

/-! C122: interpolating along the first axis first changes no bit of the result. -/

set_option autoImplicit false
set_option linter.unusedSectionVars false
set_option exponentiation.threshold 1100

namespace Interpn
open FloatOps

variable {T : Type} [FloatOps T] {N : Nat}

/-- C122, multilinear interpolation on rectilinear grids. `g` is the table that `vals` holds, and `g'`,
held by `vals'`, the smaller table obtained from it by a one-dimensional call at `x 0` for every
line along the first axis. Interpolating the smaller table at the remaining coordinates gives the result
of the whole one, whatever the arithmetic. -/
theorem C122_multilinear_rectilinear (e e₁ e' : Evaluator) (he : e.Fits (N + 1)) (he₁ : e₁.Fits 1)
    (he' : e'.Fits N) (fma : Bool) (grids : Fin (N + 1) → List T) (vals vals' : List T)
    (hG : RectilinearAccepted 2 grids vals)
    (hG' : RectilinearAccepted 2 (fun k : Fin N => grids k.succ) vals')
    (g : (Fin (N + 1) → Nat) → T) (hg : Samples (fun k => (grids k).length) vals g)
    (g' : (Fin N → Nat) → T) (hg' : Samples (fun k : Fin N => (grids k.succ).length) vals' g')
    (x : Fin (N + 1) → T)
    (hline : ∀ loc, (∀ k : Fin N, loc k < (grids k.succ).length) →
      multilinearRectilinearAt e₁ fma (fun _ : Fin 1 => grids 0) (firstLine (grids 0).length g loc)
        (fun _ => x 0) = .ok (g' loc)) :
    ∃ y, multilinearRectilinearAt e fma grids vals x = .ok y ∧
      multilinearRectilinearAt e' fma (fun k : Fin N => grids k.succ) vals' (fun k => x k.succ) =
        .ok y := by
  refine ⟨_, by rw [multilinearRectilinearAt_eq e he fma grids vals hG.slice x, hG.check le_rfl,
    Res.ok_bind], ?_⟩
  rw [multilinearRectilinearAt_eq e' he' fma _ vals' hG'.slice _, hG'.check le_rfl, Res.ok_bind,
    axisByAxis_contract (dims := fun k => (grids k).length)
      (op := fun k => linRule fma (grids k) (x k))
      (g' := valAt zero (fun k : Fin N => (grids k.succ).length) vals')
      (fun k f f' h => linRule_congr fma (hG.big k) _ h)]
  intro loc hl
  have hA := firstLine_rectilinear (by omega) hG g loc
  have h1 := hline loc hl
  rw [multilinearRectilinearAt_eq e₁ he₁ fma _ _ hA.slice, hA.check le_rfl, Res.ok_bind,
    Res.ok.injEq, axisByAxis_line (fun f f' h => linRule_congr fma (hG.big 0) _ h)] at h1
  rw [samples_congr hG'.len hg' loc hl, ← h1]
  refine linRule_congr fma (hG.big 0) _ fun i hi => (samples_congr hG.len hg _ ?_).symm
  exact Fin.cases hi hl

/-- C122, multicubic interpolation on rectilinear grids. -/
theorem C122_multicubic_rectilinear (e e₁ e' : Evaluator) (he : e.Fits (N + 1)) (he₁ : e₁.Fits 1)
    (he' : e'.Fits N) (fma : Bool) (hk₁ : SameKind fma e e₁) (hk' : SameKind fma e e')
    (grids : Fin (N + 1) → List T) (vals vals' : List T) (lin : Bool)
    (hG : RectilinearAccepted 4 grids vals)
    (hG' : RectilinearAccepted 4 (fun k : Fin N => grids k.succ) vals')
    (g : (Fin (N + 1) → Nat) → T) (hg : Samples (fun k => (grids k).length) vals g)
    (g' : (Fin N → Nat) → T) (hg' : Samples (fun k : Fin N => (grids k.succ).length) vals' g')
    (x : Fin (N + 1) → T)
    (hline : ∀ loc, (∀ k : Fin N, loc k < (grids k.succ).length) →
      multicubicRectilinearAt e₁ fma (fun _ : Fin 1 => grids 0) (firstLine (grids 0).length g loc) lin
        (fun _ => x 0) = .ok (g' loc)) :
    ∃ y, multicubicRectilinearAt e fma grids vals lin x = .ok y ∧
      multicubicRectilinearAt e' fma (fun k : Fin N => grids k.succ) vals' lin (fun k => x k.succ) =
        .ok y := by
  refine ⟨_, by rw [multicubicRectilinearAt_eq e he fma grids vals lin hG.slice x,
    hG.check (by omega), Res.ok_bind], ?_⟩
  rw [multicubicRectilinearAt_eq e' he' fma _ vals' lin hG'.slice _, hG'.check (by omega),
    Res.ok_bind, ← hk'.flags.2.2,
    axisByAxis_contract (dims := fun k => (grids k).length)
      (op := fun k => cubRectRule fma _ _ lin (grids k) (x k))
      (g' := valAt zero (fun k : Fin N => (grids k.succ).length) vals')
      (fun k f f' h => cubRectRule_congr fma _ _ lin (hG.big k) _ h)]
  intro loc hl
  have hA := firstLine_rectilinear (by omega) hG g loc
  have h1 := hline loc hl
  rw [multicubicRectilinearAt_eq e₁ he₁ fma _ _ lin hA.slice, hA.check (by omega), Res.ok_bind,
    Res.ok.injEq, ← hk₁.flags.2.2,
    axisByAxis_line (fun f f' h => cubRectRule_congr fma _ _ lin (hG.big 0) _ h)] at h1
  rw [samples_congr hG'.len hg' loc hl, ← h1]
  refine cubRectRule_congr fma _ _ lin (hG.big 0) _ fun i hi => (samples_congr hG.len hg _ ?_).symm
  exact Fin.cases hi hl

/-- C122, nearest-neighbour interpolation on rectilinear grids. -/
theorem C122_nearest_rectilinear (grids : Fin (N + 1) → List T) (vals vals' : List T)
    (hG : RectilinearAccepted 2 grids vals)
    (hG' : RectilinearAccepted 2 (fun k : Fin N => grids k.succ) vals')
    (g : (Fin (N + 1) → Nat) → T) (hg : Samples (fun k => (grids k).length) vals g)
    (g' : (Fin N → Nat) → T) (hg' : Samples (fun k : Fin N => (grids k.succ).length) vals' g')
    (x : Fin (N + 1) → T)
    (hline : ∀ loc, (∀ k : Fin N, loc k < (grids k.succ).length) →
      nearestRectilinearAt (fun _ : Fin 1 => grids 0) (firstLine (grids 0).length g loc)
        (fun _ => x 0) = .ok (g' loc)) :
    ∃ y, nearestRectilinearAt grids vals x = .ok y ∧
      nearestRectilinearAt (fun k : Fin N => grids k.succ) vals' (fun k => x k.succ) = .ok y := by
  refine ⟨_, by rw [nearestRectilinearAt_eq grids vals hG.slice, hG.check le_rfl, Res.ok_bind], ?_⟩
  have hb := fun k => nearRectAxis_bound (hG.big k) (x k)
  have hA := firstLine_rectilinear (by omega) hG g fun k : Fin N => nearRectAxis (grids k.succ) (x k.succ)
  have h1 := hline (fun k : Fin N => nearRectAxis (grids k.succ) (x k.succ)) fun k => hb k.succ
  rw [nearestRectilinearAt_eq _ _ hA.slice, hA.check le_rfl, Res.ok_bind, Res.ok.injEq,
    valAt_firstLine _ _ _ _ (hb 0)] at h1
  rw [nearestRectilinearAt_eq _ vals' hG'.slice, hG'.check le_rfl, Res.ok_bind,
    samples_congr hG'.len hg' _ fun k => hb k.succ, ← h1, samples_congr hG.len hg _ hb]
  congr 2; funext k
  exact Fin.cases rfl (fun _ => rfl) k

/-- C122, multilinear interpolation on regular grids. The results agree also if they are errors (an
observation too far outside along one of the other axes). -/
theorem C122_multilinear_regular (e e₁ e' : Evaluator) (he : e.Fits (N + 1)) (he₁ : e₁.Fits 1)
    (he' : e'.Fits N) (fma : Bool) (hk₁ : SameKind fma e e₁) (hk' : SameKind fma e e')
    (dims : Fin (N + 1) → Nat) (starts steps : Fin (N + 1) → T) (vals vals' : List T)
    (hG : RegularAccepted 2 dims steps vals)
    (hG' : RegularAccepted 2 (fun k : Fin N => dims k.succ) (fun k => steps k.succ) vals')
    (g : (Fin (N + 1) → Nat) → T) (hg : Samples dims vals g)
    (g' : (Fin N → Nat) → T) (hg' : Samples (fun k : Fin N => dims k.succ) vals' g')
    (x : Fin (N + 1) → T)
    (hline : ∀ loc, (∀ k : Fin N, loc k < dims k.succ) →
      multilinearRegularAt e₁ fma (fun _ : Fin 1 => dims 0) (fun _ => starts 0) (fun _ => steps 0)
        (firstLine (dims 0) g loc) (fun _ => x 0) = .ok (g' loc)) :
    multilinearRegularAt e fma dims starts steps vals x =
      multilinearRegularAt e' fma (fun k : Fin N => dims k.succ) (fun k => starts k.succ)
        (fun k => steps k.succ) vals' (fun k => x k.succ) := by
  have heq := multilinearRegularAt_eq e he fma dims starts steps vals hG.slice x
  have heq' := multilinearRegularAt_eq e' he' fma (fun k : Fin N => dims k.succ)
    (fun k => starts k.succ) (fun k => steps k.succ) vals' hG'.slice (fun k => x k.succ)
  have hA := fun loc => firstLine_regular (by omega) hG g loc
  have heq₁ := fun loc => multilinearRegularAt_eq e₁ he₁ fma (fun _ : Fin 1 => dims 0)
    (fun _ => starts 0) (fun _ => steps 0) _ (hA loc).slice (fun _ => x 0)
  simp only [hG.check (by omega), hG'.check (by omega), (hA _).check (by omega), Res.ok_bind,
    ← hk₁.flags.1, ← hk'.flags.1] at heq heq' heq₁
  -- the first axis succeeds
  obtain ⟨a₀, ha₀⟩ : ∃ a, linRegAxis (e.fmaLoc fma) (dims 0) (starts 0) (steps 0) (x 0) = some a := by
    by_contra hn
    have h0 : linRegAxis (e.fmaLoc fma) (dims 0) (starts 0) (steps 0) (x 0) = none := by
      by_contra h; exact hn (Option.ne_none_iff_exists'.1 h)
    have := hline (fun _ => 0) fun k => by have := hG.big k.succ; omega
    rw [(heq₁ _).2 ⟨0, h0⟩] at this
    cases this
  by_cases hn : ∃ k : Fin N,
      linRegAxis (e.fmaLoc fma) (dims k.succ) (starts k.succ) (steps k.succ) (x k.succ) = none
  · rw [heq'.2 hn]
    obtain ⟨k, hk⟩ := hn
    exact heq.2 ⟨k.succ, hk⟩
  push Not at hn
  have ha := fun k => Option.ne_none_iff_exists'.1 (hn k)
  choose a ha using ha
  rw [heq'.1 a ha, heq.1 (Fin.cons a₀ a) (Fin.cases ha₀ ha)]
  have hrule : ∀ k (f f' : Nat → T), (∀ i, i < dims k → f i = f' i) →
      lerp fma (Fin.cons (α := fun _ => Nat × T) a₀ a k).2
        (fun p => f ((Fin.cons (α := fun _ => Nat × T) a₀ a k).1 + p.val)) =
      lerp fma (Fin.cons (α := fun _ => Nat × T) a₀ a k).2
        (fun p => f' ((Fin.cons (α := fun _ => Nat × T) a₀ a k).1 + p.val)) := by
    intro k f f' h
    have hb : (Fin.cons (α := fun _ => Nat × T) a₀ a k).1 + 2 ≤ dims k := by
      refine Fin.cases ?_ (fun k => ?_) k
      · exact linRegAxis_bound (hG.big 0) ha₀
      · exact linRegAxis_bound (hG.big k.succ) (ha k)
    congr 1; funext p; exact h _ (by omega)
  rw [axisByAxis_contract (g' := valAt zero (fun k : Fin N => dims k.succ) vals') hrule]
  · rfl
  intro loc hl
  have h1 := hline loc hl
  rw [(heq₁ loc).1 (fun _ => a₀) (fun _ => ha₀), Res.ok.injEq,
    axisByAxis_line (op := fun f => lerp fma a₀.2 fun p => f (a₀.1 + p.val)) (hrule 0)] at h1
  rw [samples_congr hG'.len hg' loc hl, ← h1]
  refine hrule 0 (fun i => g (Fin.cons i loc)) (fun i => valAt zero dims vals (Fin.cons i loc))
    fun i hi => (samples_congr hG.len hg _ ?_).symm
  exact Fin.cases hi hl

/-- C122, nearest-neighbour interpolation on regular grids. -/
theorem C122_nearest_regular (fma : Bool)
    (dims : Fin (N + 1) → Nat) (starts steps : Fin (N + 1) → T) (vals vals' : List T)
    (hG : RegularAccepted 2 dims steps vals)
    (hG' : RegularAccepted 2 (fun k : Fin N => dims k.succ) (fun k => steps k.succ) vals')
    (g : (Fin (N + 1) → Nat) → T) (hg : Samples dims vals g)
    (g' : (Fin N → Nat) → T) (hg' : Samples (fun k : Fin N => dims k.succ) vals' g')
    (x : Fin (N + 1) → T)
    (hline : ∀ loc, (∀ k : Fin N, loc k < dims k.succ) →
      nearestRegularAt fma (fun _ : Fin 1 => dims 0) (fun _ => starts 0) (fun _ => steps 0)
        (firstLine (dims 0) g loc) (fun _ => x 0) = .ok (g' loc)) :
    nearestRegularAt fma dims starts steps vals x =
      nearestRegularAt fma (fun k : Fin N => dims k.succ) (fun k => starts k.succ)
        (fun k => steps k.succ) vals' (fun k => x k.succ) := by
  have heq := nearestRegularAt_eq fma dims starts steps vals hG.slice x
  have heq' := nearestRegularAt_eq fma (fun k : Fin N => dims k.succ)
    (fun k => starts k.succ) (fun k => steps k.succ) vals' hG'.slice (fun k => x k.succ)
  have hA := fun loc => firstLine_regular (by omega) hG g loc
  have heq₁ := fun loc => nearestRegularAt_eq fma (fun _ : Fin 1 => dims 0)
    (fun _ => starts 0) (fun _ => steps 0) _ (hA loc).slice (fun _ => x 0)
  simp only [hG.check (by omega), hG'.check (by omega), (hA _).check (by omega), Res.ok_bind]
    at heq heq' heq₁
  obtain ⟨a₀, ha₀⟩ : ∃ a, nearRegAxis fma (dims 0) (starts 0) (steps 0) (x 0) = some a := by
    by_contra hn
    have h0 : nearRegAxis fma (dims 0) (starts 0) (steps 0) (x 0) = none := by
      by_contra h; exact hn (Option.ne_none_iff_exists'.1 h)
    have := hline (fun _ => 0) fun k => by have := hG.big k.succ; omega
    rw [(heq₁ _).2 ⟨0, h0⟩] at this
    cases this
  by_cases hn : ∃ k : Fin N,
      nearRegAxis fma (dims k.succ) (starts k.succ) (steps k.succ) (x k.succ) = none
  · rw [heq'.2 hn]
    obtain ⟨k, hk⟩ := hn
    exact heq.2 ⟨k.succ, hk⟩
  push Not at hn
  have ha := fun k => Option.ne_none_iff_exists'.1 (hn k)
  choose a ha using ha
  have hb₀ : a₀ < dims 0 := nearRegAxis_bound (hG.big 0) ha₀
  have hb : ∀ k : Fin N, a k < dims k.succ := fun k => nearRegAxis_bound (hG.big k.succ) (ha k)
  have h1 := hline a hb
  rw [(heq₁ a).1 (fun _ => a₀) (fun _ => ha₀), Res.ok.injEq,
    valAt_firstLine (dims 0) g a (fun _ => a₀) hb₀] at h1
  let c : Fin (N + 1) → Nat := Fin.cons a₀ a
  have hc : ∀ k, nearRegAxis fma (dims k) (starts k) (steps k) (x k) = some (c k) := fun k => by
    refine Fin.cases ?_ (fun k => ?_) k
    · exact ha₀
    · exact ha k
  have hcb : ∀ k, c k < dims k := fun k => nearRegAxis_bound (hG.big k) (hc k)
  have e1 := heq.1 c hc
  have e2 := heq'.1 a ha
  rw [samples_congr hG.len hg _ hcb] at e1
  rw [samples_congr hG'.len hg' _ hb, ← h1] at e2
  exact e1.trans e2.symm

/-- C122, multicubic interpolation on regular grids. The results agree also if they are errors or
panics. -/
theorem C122_multicubic_regular (hT : TotalOfUsize T) (e e₁ e' : Evaluator) (he : e.Fits (N + 1))
    (he₁ : e₁.Fits 1) (he' : e'.Fits N) (fma : Bool) (hk₁ : SameKind fma e e₁)
    (hk' : SameKind fma e e') (dims : Fin (N + 1) → Nat) (starts steps : Fin (N + 1) → T)
    (vals vals' : List T) (lin : Bool) (hG : RegularAccepted 4 dims steps vals)
    (hG' : RegularAccepted 4 (fun k : Fin N => dims k.succ) (fun k => steps k.succ) vals')
    (g : (Fin (N + 1) → Nat) → T) (hg : Samples dims vals g)
    (g' : (Fin N → Nat) → T) (hg' : Samples (fun k : Fin N => dims k.succ) vals' g')
    (x : Fin (N + 1) → T)
    (hline : ∀ loc, (∀ k : Fin N, loc k < dims k.succ) →
      multicubicRegularAt e₁ fma (fun _ : Fin 1 => dims 0) (fun _ => starts 0) (fun _ => steps 0)
        (firstLine (dims 0) g loc) lin (fun _ => x 0) = .ok (g' loc)) :
    multicubicRegularAt e fma dims starts steps vals lin x =
      multicubicRegularAt e' fma (fun k : Fin N => dims k.succ) (fun k => starts k.succ)
        (fun k => steps k.succ) vals' lin (fun k => x k.succ) := by
  have hA := fun loc => firstLine_regular (by omega) hG g loc
  have heq₁ := fun loc => multicubicRegularAt_eq e₁ he₁ fma hT (fun _ : Fin 1 => dims 0)
    (fun _ => starts 0) (fun _ => steps 0) _ lin (hA loc).slice (fun _ => x 0)
  simp only [(hA _).check (by omega), Res.ok_bind, ← hk₁.flags.2.1] at heq₁
  rw [multicubicRegularAt_eq e he fma hT dims starts steps vals lin hG.slice x,
    hG.check (by omega), Res.ok_bind,
    multicubicRegularAt_eq e' he' fma hT _ _ _ vals' lin hG'.slice _,
    hG'.check (by omega), Res.ok_bind, ← hk'.flags.2.1]
  -- the first axis succeeds
  obtain ⟨a₀, ha₀⟩ : ∃ a, cubRegAxis (dims 0) (starts 0) (steps 0) (x 0) = .ok a := by
    have h1 := hline (fun _ => 0) fun k => by have := hG.big k.succ; omega
    rw [heq₁] at h1
    rcases axisLoop_cases 1 ((0, .none, zero) : Nat × Saturation × T) (fun i => do
        cubRegAxis (← aget (fun _ : Fin 1 => dims 0) i) (← aget (fun _ : Fin 1 => starts 0) i)
          (← aget (fun _ : Fin 1 => steps 0) i) (← aget (fun _ : Fin 1 => x 0) i)) with
      ⟨a, ha, hl⟩ | ⟨_, _, _, _, hl⟩ | ⟨_, _, _, hl⟩
    · have := ha 0
      simp only [aget_fin, Res.ok_bind] at this
      exact ⟨_, this⟩
    · rw [hl] at h1; cases h1
    · rw [hl] at h1; cases h1
  have hrest : ∀ k : Fin N, (do
      cubRegAxis (← aget dims (k.val + 1)) (← aget starts (k.val + 1)) (← aget steps (k.val + 1))
        (← aget x (k.val + 1)) : Res _) =
      (do cubRegAxis (← aget (fun k : Fin N => dims k.succ) k)
            (← aget (fun k : Fin N => starts k.succ) k)
            (← aget (fun k : Fin N => steps k.succ) k) (← aget (fun k : Fin N => x k.succ) k)) := by
    intro k
    have h (h : Fin (N + 1) → T) : aget h (k.val + 1) = .ok (h k.succ) := aget_fin h k.succ
    have h' (h : Fin (N + 1) → Nat) : aget h (k.val + 1) = .ok (h k.succ) := aget_fin h k.succ
    simp only [h, h', aget_fin, Res.ok_bind]
  have hfirst : (do
      cubRegAxis (← aget dims 0) (← aget starts 0) (← aget steps 0) (← aget x 0) : Res _) =
      .ok a₀ := by
    have h (h : Fin (N + 1) → T) : aget h 0 = .ok (h 0) := aget_fin h 0
    have h' (h : Fin (N + 1) → Nat) : aget h 0 = .ok (h 0) := aget_fin h 0
    simp only [h, h', Res.ok_bind, ha₀]
  rcases axisLoop_cases N ((0, .none, zero) : Nat × Saturation × T) (fun i => do
      cubRegAxis (← aget (fun k : Fin N => dims k.succ) i) (← aget (fun k : Fin N => starts k.succ) i)
        (← aget (fun k : Fin N => steps k.succ) i) (← aget (fun k : Fin N => x k.succ) i)) with
    ⟨a, ha, hl⟩ | ⟨i, m, hi, him, hl⟩ | ⟨i, hi, him, hl⟩
  · rw [hl, axisLoop_ok (N + 1) _ _ (Fin.cons a₀ a)
      (Fin.cases hfirst fun k => (hrest k).trans (ha k)), Res.ok_bind, Res.ok_bind]
    have ha' : ∀ k : Fin N, cubRegAxis (dims k.succ) (starts k.succ) (steps k.succ) (x k.succ) =
        .ok (a k) := fun k => by
      have := ha k
      simpa only [aget_fin, Res.ok_bind] using this
    have hrule : ∀ k (f f' : Nat → T), (∀ i, i < dims k → f i = f' i) →
        cubRegRule fma (e.fmaLow fma) lin (Fin.cons (α := fun _ => Nat × Saturation × T) a₀ a k) f =
        cubRegRule fma (e.fmaLow fma) lin (Fin.cons (α := fun _ => Nat × Saturation × T) a₀ a k) f' := by
      intro k f f' h
      have hb : (Fin.cons (α := fun _ => Nat × Saturation × T) a₀ a k).1 + 4 ≤ dims k := by
        refine Fin.cases ?_ (fun k => ?_) k
        · exact cubRegAxis_bound (hG.big 0) ha₀
        · exact cubRegAxis_bound (hG.big k.succ) (ha' k)
      unfold cubRegRule
      congr 1; funext p; exact h _ (by omega)
    rw [axisByAxis_contract (g' := valAt zero (fun k : Fin N => dims k.succ) vals') hrule]
    · rfl
    intro loc hloc
    have h1 := hline loc hloc
    rw [heq₁ loc, axisLoop_ok 1 _ _ (fun _ => a₀) (fun k => by
        simp only [aget_fin, Res.ok_bind]; exact ha₀), Res.ok_bind, Res.ok.injEq,
      axisByAxis_line (op := cubRegRule fma (e.fmaLow fma) lin a₀) (hrule 0)] at h1
    rw [samples_congr hG'.len hg' loc hloc, ← h1]
    refine hrule 0 (fun i => g (Fin.cons i loc)) (fun i => valAt zero dims vals (Fin.cons i loc))
      fun i hi => (samples_congr hG.len hg _ ?_).symm
    exact Fin.cases hi hloc
  · rw [hl, (axisLoop_fail (N + 1) _ _ (i.val + 1) (by omega) ?_).1 m ((hrest i).trans him)]
    · rfl
    · intro j hj
      cases j with
      | zero => exact ⟨_, hfirst⟩
      | succ j =>
        obtain ⟨b, hb⟩ := hi ⟨j, by omega⟩ (show j < i.val by omega)
        exact ⟨b, (hrest ⟨j, by omega⟩).trans hb⟩
  · rw [hl, (axisLoop_fail (N + 1) _ _ (i.val + 1) (by omega) ?_).2 ((hrest i).trans him)]
    · rfl
    · intro j hj
      cases j with
      | zero => exact ⟨_, hfirst⟩
      | succ j =>
        obtain ⟨b, hb⟩ := hi ⟨j, by omega⟩ (show j < i.val by omega)
        exact ⟨b, (hrest ⟨j, by omega⟩).trans hb⟩

section Examples

/-- A result, or the default `d`. -/
def Res.getOr {α : Type} (d : α) : Res α → α
  | .ok a => a
  | _ => d

omit [FloatOps T] in
/-- A 1-D table holds its values. -/
theorem samples_range {n : Nat} {dims : Fin 1 → Nat} (hn : dims 0 = n) (v : Nat → T) :
    Samples dims ((List.range n).map v) fun loc => v (loc 0) := by
  intro loc hl
  have h0 : loc 0 < n := hn ▸ hl 0
  have hc : cIndex dims loc = loc 0 := by simp [cIndex]
  rw [hc, List.getElem?_map, List.getElem?_range h0]
  rfl

/-- A statement about all positions of a 1-D table. -/
theorem forall_loc {n : Nat} {dims : Fin 1 → Nat} (hn : dims 0 = n) {P : (Fin 1 → Nat) → Prop}
    (h : ∀ i : Fin n, P fun _ => i.val) (loc : Fin 1 → Nat) (hl : ∀ k, loc k < dims k) : P loc := by
  have : loc = fun _ => loc 0 := funext fun k => by rw [Subsingleton.elim k 0]
  rw [this]
  exact h ⟨loc 0, hn ▸ hl 0⟩

/-- `f64`: a 3×2 table. The lines along the first axis are interpolated at `1/3`, then the two results
at `7/3`. -/
example (e e' : Evaluator) (he : e.Fits 2) (he' : e'.Fits 1) (fma : Bool) :
    let x : Fin 2 → F64 := ![q64 (1 / 3), q64 (7 / 3)]
    let line := fun i => multilinearRectilinearAt .flat fma (fun _ : Fin 1 => exGrids64 0)
      (firstLine 3 (valAt (q64 0) ![3, 2] exVals64) fun _ : Fin 1 => i) (fun _ => x 0)
    ∃ y, multilinearRectilinearAt e fma exGrids64 exVals64 x = .ok y ∧
      multilinearRectilinearAt e' fma (fun k : Fin 1 => exGrids64 k.succ)
        ((List.range 2).map fun i => (line i).getOr (q64 0)) (fun k => x k.succ) = .ok y := by
  intro x line
  refine C122_multilinear_rectilinear e .flat e' he (by unfold Evaluator.Fits; decide) he' fma
    exGrids64 exVals64 ((List.range 2).map fun i => (line i).getOr (q64 0))
    ⟨by unfold IsSlice; decide, by decide, by decide, ?_⟩
    ⟨by unfold IsSlice; simp, by simp [exGrids64], by decide, ?_⟩ (valAt (q64 0) ![3, 2] exVals64)
    (samples_check ?_) (fun loc => (line (loc 0)).getOr (q64 0))
    (samples_range rfl fun i => (line i).getOr (q64 0)) x
    (forall_loc rfl (n := 2) ?_)
  · intro k; fin_cases k <;> exact ⟨_, _, _, rfl, by decide +kernel⟩
  · intro k; fin_cases k; exact ⟨_, _, _, rfl, by decide +kernel⟩
  · decide +kernel
  · cases fma <;> decide +kernel

/-- Interpolating along the second axis first rounds differently. -/
theorem C122_order :
    let line := fun i => multilinearRectilinearAt .flat false (fun _ : Fin 1 => exGrids64 1)
      [exVals64.getD (2 * i) (q64 0), exVals64.getD (2 * i + 1) (q64 0)] (fun _ => q64 (5 / 7))
    multilinearRectilinearAt .flat false exGrids64 exVals64 ![q64 (2 / 7), q64 (5 / 7)] ≠
      multilinearRectilinearAt .flat false (fun _ : Fin 1 => exGrids64 0)
        [(line 0).getOr (q64 0), (line 1).getOr (q64 0), (line 2).getOr (q64 0)]
        (fun _ => q64 (2 / 7)) := by
  decide +kernel

/-- `f64`: a 4×5 table, multicubic and nearest-neighbour. -/
example (lin : Bool) :
    let x : Fin 2 → F64 := ![q64 (1 / 3), q64 (7 / 3)]
    let v := valAt (q64 0) ![4, 5] exVals64c
    let lineC := fun i => multicubicRectilinearAt .flat true (fun _ : Fin 1 => exGrids64c 0)
      (firstLine 4 v fun _ : Fin 1 => i) lin (fun _ => x 0)
    let lineN := fun i => nearestRectilinearAt (fun _ : Fin 1 => exGrids64c 0)
      (firstLine 4 v fun _ : Fin 1 => i) (fun _ => x 0)
    (∃ y, multicubicRectilinearAt .flat true exGrids64c exVals64c lin x =
        .ok y ∧
      multicubicRectilinearAt .flat true (fun k : Fin 1 => exGrids64c k.succ)
        ((List.range 5).map fun i => (lineC i).getOr (q64 0)) lin (fun k => x k.succ) = .ok y) ∧
    (∃ y, nearestRectilinearAt exGrids64c exVals64c x = .ok y ∧
      nearestRectilinearAt (fun k : Fin 1 => exGrids64c k.succ)
        ((List.range 5).map fun i => (lineN i).getOr (q64 0)) (fun k => x k.succ) = .ok y) := by
  intro x v lineC lineN
  have hS : Samples (fun k => (exGrids64c k).length) exVals64c v := samples_check (by decide +kernel)
  have hG : ∀ m ≤ 4, RectilinearAccepted m exGrids64c exVals64c := fun m hm =>
    ⟨by unfold IsSlice; decide, by decide, fun k => hm.trans (by revert k; decide),
      by intro k; fin_cases k <;> exact ⟨_, _, _, rfl, by decide +kernel⟩⟩
  have hG' : ∀ m ≤ 4, ∀ w : Nat → F64, RectilinearAccepted m (fun k : Fin 1 => exGrids64c k.succ)
      ((List.range 5).map w) := fun m hm w =>
    ⟨by unfold IsSlice; simp, by simp [exGrids64c], fun k => hm.trans (by revert k; decide),
      by intro k; fin_cases k; exact ⟨_, _, _, rfl, by decide +kernel⟩⟩
  refine ⟨C122_multicubic_rectilinear .flat .flat .flat (by unfold Evaluator.Fits; decide)
    (by unfold Evaluator.Fits; decide) (by unfold Evaluator.Fits; decide) true (fun _ => Iff.rfl) (fun _ => Iff.rfl)
    exGrids64c exVals64c _ lin (hG 4 le_rfl) (hG' 4 le_rfl _) v hS _
    (samples_range rfl fun i => (lineC i).getOr (q64 0)) x
    (forall_loc rfl (n := 5) ?_),
    C122_nearest_rectilinear exGrids64c exVals64c _ (hG 2 (by omega)) (hG' 2 (by omega) _) v hS _
    (samples_range rfl fun i => (lineN i).getOr (q64 0)) x
    (forall_loc rfl (n := 5) ?_)⟩
  · cases lin <;> decide +kernel
  · decide +kernel

/-- `f64`: a 4×5 table on a regular grid, all methods. -/
example (lin : Bool) :
    let dims : Fin 2 → Nat := ![4, 5]
    let starts : Fin 2 → F64 := ![q64 0, q64 (-1)]
    let steps : Fin 2 → F64 := ![q64 (1 / 10), q64 2]
    let x : Fin 2 → F64 := ![q64 (1 / 3), q64 (14 / 10)]
    let v := valAt (q64 0) ![4, 5] exVals64c
    let lineL := fun i => multilinearRegularAt .flat true (fun _ : Fin 1 => dims 0) (fun _ => starts 0)
      (fun _ => steps 0) (firstLine 4 v fun _ : Fin 1 => i) (fun _ => x 0)
    let lineC := fun i => multicubicRegularAt .flat true (fun _ : Fin 1 => dims 0) (fun _ => starts 0)
      (fun _ => steps 0) (firstLine 4 v fun _ : Fin 1 => i) lin (fun _ => x 0)
    let lineN := fun i => nearestRegularAt true (fun _ : Fin 1 => dims 0) (fun _ => starts 0)
      (fun _ => steps 0) (firstLine 4 v fun _ : Fin 1 => i) (fun _ => x 0)
    multilinearRegularAt .flat true dims starts steps exVals64c x =
      multilinearRegularAt .flat true (fun k : Fin 1 => dims k.succ)
        (fun k => starts k.succ) (fun k => steps k.succ)
        ((List.range 5).map fun i => (lineL i).getOr (q64 0)) (fun k => x k.succ) ∧
    multicubicRegularAt .flat true dims starts steps exVals64c lin x =
      multicubicRegularAt .flat true (fun k : Fin 1 => dims k.succ)
        (fun k => starts k.succ) (fun k => steps k.succ)
        ((List.range 5).map fun i => (lineC i).getOr (q64 0)) lin (fun k => x k.succ) ∧
    nearestRegularAt true dims starts steps exVals64c x =
      nearestRegularAt true (fun k : Fin 1 => dims k.succ)
        (fun k => starts k.succ) (fun k => steps k.succ)
        ((List.range 5).map fun i => (lineN i).getOr (q64 0)) (fun k => x k.succ) := by
  intro dims starts steps x v lineL lineC lineN
  have hS : Samples dims exVals64c v := samples_check (by decide +kernel)
  have hG : ∀ m ≤ 4, RegularAccepted m dims steps exVals64c := fun m hm =>
    ⟨by unfold IsSlice; decide, by decide, fun k => hm.trans (by revert k; decide),
      by decide +kernel⟩
  have hG' : ∀ m ≤ 4, ∀ w : Nat → F64, RegularAccepted m (fun k : Fin 1 => dims k.succ)
      (fun k => steps k.succ) ((List.range 5).map w) := fun m hm w =>
    ⟨by unfold IsSlice; simp, by simp [dims], fun k => hm.trans (by revert k; decide),
      by decide +kernel⟩
  have hF1 : Evaluator.flat.Fits 1 := by unfold Evaluator.Fits; decide
  have hF2 : Evaluator.flat.Fits 2 := by unfold Evaluator.Fits; decide
  refine ⟨C122_multilinear_regular .flat .flat .flat hF2 hF1 hF1 true (fun _ => Iff.rfl) (fun _ => Iff.rfl) dims starts steps
    exVals64c _ (hG 2 (by omega)) (hG' 2 (by omega) _) v hS _
    (samples_range rfl fun i => (lineL i).getOr (q64 0)) x (forall_loc rfl (n := 5) ?_),
    C122_multicubic_regular (Ieee.totalOfUsize _) .flat .flat .flat hF2 hF1 hF1 true (fun _ => Iff.rfl) (fun _ => Iff.rfl) dims starts
    steps exVals64c _ lin (hG 4 le_rfl) (hG' 4 le_rfl _) v hS _
    (samples_range rfl fun i => (lineC i).getOr (q64 0)) x (forall_loc rfl (n := 5) ?_),
    C122_nearest_regular true dims starts
    steps exVals64c _ (hG 2 (by omega)) (hG' 2 (by omega) _) v hS _
    (samples_range rfl fun i => (lineN i).getOr (q64 0)) x (forall_loc rfl (n := 5) ?_)⟩
  · decide +kernel
  · cases lin <;> decide +kernel
  · decide +kernel

end Examples
end Interpn
