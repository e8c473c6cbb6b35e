import Verif.Spec.PythonClasses
import Verif.Props.EntryPoints
import Verif.Props.Python
import Verif.Props.NoPanic
import Verif.Props.Constructors
import Mathlib.Data.Rat.Encodable
import Mathlib.Logic.Equiv.List

/-! C58 to C62: the Python classes. The statements ending in `_f64` and `_f32` are the same for the
two element types. -/

set_option autoImplicit false
set_option linter.unusedSectionVars false

namespace Interpn
open FloatOps

/-! #### Argument extraction -/

theorem pyEach_ok {α β : Type} {f : α → Except PyExc β} {g : β → α} (h : ∀ b, f (g b) = .ok b)
    (l : List β) : pyEach f (l.map g) = .ok l := by
  induction l with
  | nil => rfl
  | cons b l ih => rw [List.map_cons, pyEach, h, ih]; rfl

theorem pyEach_error {α β : Type} {f : α → Except PyExc β} {e : PyExc} :
    ∀ {l : List α}, (∀ a ∈ l, (∃ b, f a = .ok b) ∨ f a = .error e) → (∃ a ∈ l, f a = .error e) →
      pyEach f l = .error e
  | [], _, ⟨_, h, _⟩ => by simp at h
  | a :: l, h, hex => by
    rw [pyEach]
    rcases h a (by simp) with ⟨b, hb⟩ | hb
    · rw [hb, pyEach_error (l := l) (fun a ha => h a (by simp [ha]))]
      · rfl
      · obtain ⟨a', ha', h'⟩ := hex
        rcases List.mem_cons.1 ha' with rfl | ha'
        · rw [hb] at h'; cases h'
        · exact ⟨a', ha', h'⟩
    · rw [hb]; rfl

theorem pyEach_cases {α β : Type} {f : α → Except PyExc β} {e : PyExc} {l : List α}
    (h : ∀ a ∈ l, (∃ b, f a = .ok b) ∨ f a = .error e) :
    (∃ bs, pyEach f l = .ok bs) ∨ pyEach f l = .error e := by
  induction l with
  | nil => exact .inl ⟨_, rfl⟩
  | cons a l ih =>
    rw [pyEach]
    rcases h a (by simp) with ⟨b, hb⟩ | hb
    · rcases ih (fun a ha => h a (by simp [ha])) with ⟨bs, hbs⟩ | hbs
      · rw [hb, hbs]; exact .inl ⟨_, rfl⟩
      · rw [hb, hbs]; exact .inr rfl
    · rw [hb]; exact .inr rfl

theorem pyEach_pyUsize {dims : List Nat} (hd : ∀ d ∈ dims, d ≤ usizeMax) :
    pyEach pyUsize (dims.map fun d : Nat => (d : Int)) = .ok dims := by
  induction dims with
  | nil => rfl
  | cons d dims ih =>
    have h1 : pyUsize (d : Int) = .ok d := by
      have := hd d (by simp)
      unfold pyUsize
      rw [if_pos ⟨by omega, by omega⟩]; simp
    rw [List.map_cons, pyEach, h1, ih (fun d h => hd d (by simp [h]))]
    rfl

theorem pyUsize_cases (z : Int) : (∃ n, pyUsize z = .ok n) ∨ pyUsize z = .error .overflowError := by
  unfold pyUsize
  split
  · exact .inl ⟨_, rfl⟩
  · exact .inr rfl

section
variable {T : Type} [FloatOps T] {N : Nat}

theorem rawRegular_kind (k : ClassKind) (fma : Bool) (dims : List Nat) (starts steps vals : List T)
    (obs : List (List T)) (out : List T) (h8 : obs.length ≤ 8) :
    rawRegular fma k.method dims starts steps vals k.lin obs out =
      pyOfRes (k.runRegular fma dims starts steps vals obs out) := by
  unfold rawRegular unpackOk
  cases k <;> simp [h8, ClassKind.method, ClassKind.lin, ClassKind.runRegular]

theorem rawRectilinear_kind (k : ClassKind) (fma : Bool) (grids : List (List T)) (vals : List T)
    (obs : List (List T)) (out : List T) (h8 : obs.length ≤ 8) (h8' : grids.length ≤ 8) :
    rawRectilinear fma k.method grids vals k.lin obs out =
      pyOfRes (k.runRectilinear fma grids vals obs out) := by
  unfold rawRectilinear unpackOk
  cases k <;> simp [h8, h8', ClassKind.method, ClassKind.lin, ClassKind.runRectilinear]

omit [FloatOps T] in
theorem pyOfRes_wrap {α β : Type} (wrap : List α → β) (r : Res Unit × List α) :
    (pyOfRes r >>= fun o => (pure (wrap o) : Except PyExc _)) = pyOutcome wrap r := by
  obtain ⟨r1, r2⟩ := r
  cases r1 <;> rfl

/-- Entry points of accepted grids, by kind. -/
theorem ClassKind.runRegular_spec (k : ClassKind) (fma : Bool) (h1 : 1 ≤ N)
    (h8 : N ≤ if k = .nearest then 6 else 8) (dims : Fin N → Nat) (starts steps : Fin N → T)
    (vals : List T) (hG : RegularAccepted k.minNodes dims steps vals) :
    BatchSpec (k.regularAt fma dims starts steps vals)
      (fun x out => k.runRegular fma (List.ofFn dims) (List.ofFn starts) (List.ofFn steps) vals
        (List.ofFn x) out) := by
  cases k with
  | multilinear => exact C10_C11_multilinear_regular_entry fma h1 (by simpa using h8) _ _ _ _ hG
  | nearest => exact C10_C11_nearest_regular_entry fma h1 (by simpa using h8) _ _ _ _ hG
  | multicubic lin => exact C10_C12_multicubic_regular_entry fma h1 (by simpa using h8) _ _ _ _ _ hG

theorem ClassKind.runRectilinear_spec (k : ClassKind) (fma : Bool) (h1 : 1 ≤ N)
    (h8 : N ≤ if k = .nearest then 6 else 8) (grids : Fin N → List T)
    (vals : List T) (hG : RectilinearAccepted k.minNodes grids vals) :
    BatchSpec (k.rectilinearAt fma grids vals)
      (fun x out => k.runRectilinear fma (List.ofFn grids) vals (List.ofFn x) out) := by
  cases k with
  | multilinear => exact C10_C11_multilinear_rectilinear_entry fma h1 (by simpa using h8) _ _ hG
  | nearest => exact C10_C11_nearest_rectilinear_entry h1 (by simpa using h8) _ _ hG
  | multicubic lin =>
    exact C10_C12_multicubic_rectilinear_entry fma h1 (by simpa using h8) _ _ _ hG

theorem linearImpl_fits (h1 : 1 ≤ N) : (linearImpl N).Fits N := by
  unfold linearImpl
  split
  · exact h1
  · exact ⟨h1, le_rfl⟩

theorem cubicImpl_fits (h1 : 1 ≤ N) : (cubicImpl N).Fits N := by
  unfold cubicImpl
  split
  · exact h1
  · exact ⟨h1, le_rfl⟩

/-- On accepted rectilinear grids every observation has a value. -/
theorem ClassKind.rectilinearAt_total (k : ClassKind) (fma : Bool) (h1 : 1 ≤ N)
    (grids : Fin N → List T) (vals : List T) (hG : RectilinearAccepted k.minNodes grids vals)
    (x : Fin N → T) : ∃ v, k.rectilinearAt fma grids vals x = .ok v := by
  cases k with
  | multilinear =>
    show ∃ v, multilinearRectilinearAt _ _ _ _ _ = _
    rw [multilinearRectilinearAt_eq _ (linearImpl_fits h1) fma grids vals hG.slice x,
      RectilinearAccepted.check (m := 2) hG (by omega), Res.ok_bind]
    exact ⟨_, rfl⟩
  | nearest =>
    show ∃ v, nearestRectilinearAt _ _ _ = _
    rw [nearestRectilinearAt_eq grids vals hG.slice x,
      RectilinearAccepted.check (m := 2) hG (by omega), Res.ok_bind]
    exact ⟨_, rfl⟩
  | multicubic lin =>
    show ∃ v, multicubicRectilinearAt _ _ _ _ _ _ = _
    rw [multicubicRectilinearAt_eq _ (cubicImpl_fits h1) fma grids vals lin hG.slice x,
      RectilinearAccepted.check (m := 4) hG (by omega), Res.ok_bind]
    exact ⟨_, rfl⟩

omit [FloatOps T] in
/-- A batch of which every observation has a value succeeds. -/
theorem BatchSpec.all_ok {one : (Fin N → T) → Res T}
    {interp : (Fin N → List T) → List T → Res Unit × List T} (h : BatchSpec one interp)
    (htot : ∀ p, ∃ v, one p = .ok v) (x : Fin N → List T) (out : List T)
    (hx : ∀ k, (x k).length = out.length) :
    ∃ vs, interp x out = (.ok (), vs) ∧ vs.length = out.length ∧ ResultsOf one x vs := by
  rcases h.total x out hx with ⟨o, h1, h2⟩ | ⟨vs, pt, _, _, _, hf⟩
  · exact ⟨o, (h.ok_iff x out o).2 ⟨hx, h1, h2⟩, h1, h2⟩
  · obtain ⟨v, hv⟩ := htot pt
    rw [hv] at hf
    rcases hf with ⟨e, hf⟩ | hf <;> cases hf

/-- Too few nodes on some axis: error of the entry point. -/
theorem ClassKind.runRegular_tooFew (k : ClassKind) (fma : Bool) (h1 : 1 ≤ N)
    (h8 : N ≤ if k = .nearest then 6 else 8) (dims : Fin N → Nat) (starts steps : Fin N → T)
    (vals : List T) (hf : ProductFits (List.ofFn dims)) (hl : vals.length = (List.ofFn dims).prod)
    (hd : ∃ a, dims a < k.minNodes) (x : Fin N → List T) (out : List T) :
    k.runRegular fma (List.ofFn dims) (List.ofFn starts) (List.ofFn steps) vals (List.ofFn x) out =
      (.err k.tooFewRegular, out) := by
  have hd' : ∃ d ∈ List.ofFn dims, d < k.minNodes := by
    obtain ⟨a, ha⟩ := hd
    exact ⟨dims a, by simp, ha⟩
  cases k with
  | multilinear =>
    simp only [reduceCtorEq, if_false] at h8
    show multilinearRegularInterpn _ _ _ _ _ _ _ = _
    by_cases h6 : N ≤ 6
    · rw [C11_multilinear_regular_flat fma h1 h6,
        (C08_multilinear_regular dims starts steps vals).small hf hl hd']; rfl
    · obtain ⟨s, _, _, hspec⟩ := C08_multilinear_regular_recursive (M := N) (List.ofFn dims)
        (List.ofFn starts) (List.ofFn steps) vals (by simp) (by simp)
        (by intro h; have := congrArg List.length h; simp at this; omega)
      rw [C11_multilinear_regular_recursive fma (by omega),
        hspec.small hf hl hd']; rfl
  | nearest =>
    simp only [if_true] at h8
    show nearestRegularInterpn _ _ _ _ _ _ _ = _
    rw [C11_nearest_regular fma h1 h8,
      (C08_nearest_regular dims starts steps vals).small hf hl hd']; rfl
  | multicubic lin =>
    simp only [reduceCtorEq, if_false] at h8
    show multicubicRegularInterpn _ _ _ _ _ _ _ _ = _
    by_cases h4 : N ≤ 4
    · rw [C12_multicubic_regular_flat fma h1 h4,
        (C08_multicubic_regular dims starts steps vals lin).small hf hl hd']; rfl
    · obtain ⟨s, _, _, hspec⟩ := C08_multicubic_regular_recursive (M := N) (List.ofFn dims)
        (List.ofFn starts) (List.ofFn steps) vals lin (by simp) (by simp)
        (by intro h; have := congrArg List.length h; simp at this; omega)
      rw [C12_multicubic_regular_recursive fma _ _ _ _ _ _ _ List.length_ofFn (by omega) h8,
        hspec.small hf hl hd']; rfl

theorem ClassKind.runRectilinear_tooFew (k : ClassKind) (fma : Bool) (h1 : 1 ≤ N)
    (h8 : N ≤ if k = .nearest then 6 else 8) (grids : Fin N → List T)
    (vals : List T) (hf : ProductFits ((List.ofFn grids).map List.length))
    (hl : vals.length = ((List.ofFn grids).map List.length).prod)
    (hd : ∃ a, (grids a).length < k.minNodes) (x : Fin N → List T) (out : List T) :
    k.runRectilinear fma (List.ofFn grids) vals (List.ofFn x) out =
      (.err k.tooFewRectilinear, out) := by
  have hd' : ∃ g ∈ List.ofFn grids, g.length < k.minNodes := by
    obtain ⟨a, ha⟩ := hd
    exact ⟨grids a, by simp, ha⟩
  cases k with
  | multilinear =>
    simp only [reduceCtorEq, if_false] at h8
    show multilinearRectilinearInterpn _ _ _ _ _ = _
    by_cases h6 : N ≤ 6
    · rw [C11_multilinear_rectilinear_flat fma h1 h6,
        (C08_multilinear_rectilinear grids vals).small hf hl hd']; rfl
    · obtain ⟨s, hspec⟩ := C08_multilinear_rectilinear_recursive (M := N) (List.ofFn grids) vals
        (by intro h; have := congrArg List.length h; simp at this; omega) (by simp)
      rw [C11_multilinear_rectilinear_recursive fma (by omega),
        hspec.small hf hl hd']; rfl
  | nearest =>
    simp only [if_true] at h8
    show nearestRectilinearInterpn _ _ _ _ = _
    rw [C11_nearest_rectilinear h1 h8,
      (C08_nearest_rectilinear grids vals).small hf hl hd']; rfl
  | multicubic lin =>
    simp only [reduceCtorEq, if_false] at h8
    show multicubicRectilinearInterpn _ _ _ _ _ _ = _
    by_cases h4 : N ≤ 4
    · rw [C12_multicubic_rectilinear_flat fma h1 h4,
        (C08_multicubic_rectilinear grids vals lin).small hf hl hd']; rfl
    · obtain ⟨s, hspec⟩ := C08_multicubic_rectilinear_recursive (M := N) (List.ofFn grids) vals lin
        (by intro h; have := congrArg List.length h; simp at this; omega) (by simp)
      rw [C12_multicubic_rectilinear_recursive fma _ _ _ _ _ List.length_ofFn (by omega) h8,
        hspec.small hf hl hd']; rfl

/-- The validator's monotonicity check implies the one of the Rust constructor. -/
theorem secondExceedsFirst_of_increasing (hsub : SubDetectsOrder T) {g : List T}
    (h2 : 2 ≤ g.length) (hg : IncreasingSteps g) : SecondExceedsFirst g := by
  match g, h2 with
  | a :: b :: rest, _ =>
    have := hg 0 (by simp)
    rw [hsub] at this
    exact ⟨a, b, rest, rfl, by simpa using this⟩

theorem npDiff_all_iff (g : List T) :
    ((npDiff g).all fun x => zero <. x) = true ↔ IncreasingSteps g := by
  rw [List.all_eq_true]
  constructor
  · intro h i hi
    rw [← npDiff_getElem g i hi]
    exact h _ (List.getElem_mem _)
  · intro h d hd
    obtain ⟨i, hi, rfl⟩ := List.getElem_of_mem hd
    rw [npDiff_length] at hi
    rw [npDiff_getElem g i (by omega)]
    exact h i (by omega)

end

section
variable {F32 F64 X : Type} [FloatOps F32] [FloatOps F64] {N : Nat}

/-! #### C58: construction -/

theorem pyAssert_bind {β : Type} (c : Bool) (msg : String) (r : Except PyExc β) (b : β) :
    (pyAssert c msg >>= fun _ => r) = .ok b ↔ c = true ∧ r = .ok b := by
  unfold pyAssert
  cases c
  · simp [Bind.bind, Except.bind]
  · simp [Bind.bind, Except.bind]

theorem pyAssert_error {β : Type} (c : Bool) (msg : String) (r : Except PyExc β) (e : PyExc)
    (h : (pyAssert c msg >>= fun _ => r) = .error e) : e = .validationError msg ∨ r = .error e := by
  unfold pyAssert at h
  cases c
  · simp only [Bool.false_eq_true, if_false, Bind.bind, Except.bind, Except.error.injEq] at h
    exact .inl h.symm
  · exact .inr (by simpa [Bind.bind, Except.bind] using h)

theorem Arr.allPositive_iff (a : Arr F32 F64) : a.allPositive = true ↔ a.Satisfies AllPositive := by
  cases a <;> simp [Arr.allPositive, Arr.Satisfies, AllPositive]

theorem Arr.allIncreasing_iff (a : Arr F32 F64) :
    a.allIncreasing = true ↔ a.Satisfies IncreasingSteps := by
  cases a
  · exact npDiff_all_iff _
  · exact npDiff_all_iff _

theorem maxDims_eq (k : ClassKind) : k.maxDims = if k = .nearest then 6 else 8 := by
  cases k <;> rfl

theorem RegularObj.validate_iff (m : RegularObj F32 F64) : m.validate = .ok () ↔ m.Valid := by
  unfold RegularObj.validate
  simp only [pyAssert_bind]
  have hlast : ∀ (c : Bool) (s : String), pyAssert c s = .ok () ↔ c = true := by
    intro c s; unfold pyAssert; cases c <;> simp
  rw [hlast]
  have hprod : m.dims.foldl (· * ·) 1 = m.dims.prod := by rw [List.prod_eq_foldl]
  rw [Arr.allPositive_iff, maxDims_eq, hprod]
  simp only [Bool.and_eq_true, decide_eq_true_eq, beq_iff_eq]
  constructor
  · rintro ⟨⟨h1, h2⟩, h3, h4, h5, h6, h7⟩
    refine ⟨⟨h2, h1⟩, h3, h4, h5, h6, ?_⟩
    unfold RegularObj.dtypeChecked at h7
    cases hk : m.kind <;> rw [hk] at h7 <;> simp_all
  · rintro ⟨⟨h1, h2⟩, h3, h4, h5, h6, h7, h8⟩
    refine ⟨⟨h2, h1⟩, h3, h4, h5, h6, ?_⟩
    unfold RegularObj.dtypeChecked
    cases hk : m.kind <;> simp_all

theorem RectilinearObj.validate_iff (m : RectilinearObj F32 F64) :
    m.validate = .ok () ↔ m.Valid := by
  unfold RectilinearObj.validate
  simp only [pyAssert_bind]
  have hlast : ∀ (c : Bool) (s : String), pyAssert c s = .ok () ↔ c = true := by
    intro c s; unfold pyAssert; cases c <;> simp
  rw [hlast]
  have hprod : m.dims.foldl (· * ·) 1 = (m.grids.map Arr.size).prod := by
    rw [List.prod_eq_foldl]; rfl
  rw [maxDims_eq, hprod]
  simp only [Bool.and_eq_true, decide_eq_true_eq, beq_iff_eq, List.all_eq_true,
    Arr.allIncreasing_iff]
  constructor
  · rintro ⟨⟨h1, h2⟩, h3, h4, h5⟩
    exact ⟨⟨h2, h1⟩, h3, h4, h5⟩
  · rintro ⟨⟨h1, h2⟩, h3, h4, h5⟩
    exact ⟨⟨h2, h1⟩, h3, h4, h5⟩

/-- C58: calling a regular-grid class with its fields succeeds exactly for valid data, gives the
object with these fields, and otherwise raises a `ValidationError`. -/
theorem C58_regular (kind : ClassKind) (dims : List Int) (starts steps vals : Arr F32 F64) :
    ((RegularObj.Valid ⟨kind, dims, starts, steps, vals⟩ →
      RegularObj.construct kind dims starts steps vals = .ok ⟨kind, dims, starts, steps, vals⟩) ∧
    (¬ RegularObj.Valid ⟨kind, dims, starts, steps, vals⟩ →
      ∃ msg, RegularObj.construct kind dims starts steps vals = .error (.validationError msg))) := by
  rw [← RegularObj.validate_iff]
  unfold RegularObj.construct
  simp only
  constructor
  · intro h; rw [h]; rfl
  · intro h
    cases hv : RegularObj.validate ⟨kind, dims, starts, steps, vals⟩ with
    | ok u => exact absurd hv h
    | error e =>
      have : ∃ msg, e = .validationError msg := by
        have h1 := hv
        unfold RegularObj.validate at h1
        simp only at h1
        rcases pyAssert_error _ _ _ _ h1 with h1 | h1
        · exact ⟨_, h1⟩
        rcases pyAssert_error _ _ _ _ h1 with h1 | h1
        · exact ⟨_, h1⟩
        rcases pyAssert_error _ _ _ _ h1 with h1 | h1
        · exact ⟨_, h1⟩
        rcases pyAssert_error _ _ _ _ h1 with h1 | h1
        · exact ⟨_, h1⟩
        rcases pyAssert_error _ _ _ _ h1 with h1 | h1
        · exact ⟨_, h1⟩
        unfold pyAssert at h1
        split at h1
        · cases h1
        · cases h1; exact ⟨_, rfl⟩
      obtain ⟨msg, rfl⟩ := this
      exact ⟨msg, rfl⟩

/-- C58, rectilinear grids. -/
theorem C58_rectilinear (kind : ClassKind) (grids : List (Arr F32 F64)) (vals : Arr F32 F64) :
    ((RectilinearObj.Valid ⟨kind, grids, vals⟩ →
      RectilinearObj.construct kind grids vals = .ok ⟨kind, grids, vals⟩) ∧
    (¬ RectilinearObj.Valid ⟨kind, grids, vals⟩ →
      ∃ msg, RectilinearObj.construct kind grids vals = .error (.validationError msg))) := by
  rw [← RectilinearObj.validate_iff]
  unfold RectilinearObj.construct
  simp only
  constructor
  · intro h; rw [h]; rfl
  · intro h
    cases hv : RectilinearObj.validate ⟨kind, grids, vals⟩ with
    | ok u => exact absurd hv h
    | error e =>
      have : ∃ msg, e = .validationError msg := by
        have h1 := hv
        unfold RectilinearObj.validate at h1
        simp only at h1
        rcases pyAssert_error _ _ _ _ h1 with h1 | h1
        · exact ⟨_, h1⟩
        rcases pyAssert_error _ _ _ _ h1 with h1 | h1
        · exact ⟨_, h1⟩
        rcases pyAssert_error _ _ _ _ h1 with h1 | h1
        · exact ⟨_, h1⟩
        unfold pyAssert at h1
        split at h1
        · cases h1
        · cases h1; exact ⟨_, rfl⟩
      obtain ⟨msg, rfl⟩ := this
      exact ⟨msg, rfl⟩

/-- C58: the message names the first violated condition, in this order: number of axes, number of
starts and steps, number of values, sign of the steps, element types. -/
theorem C58_regular_messages (kind : ClassKind) (dims : List Int) (starts steps vals : Arr F32 F64) :
    (dims.length = 0 ∨ (if kind = .nearest then 6 else 8) < dims.length →
      RegularObj.construct kind dims starts steps vals = .error (.validationError
        (if kind = .nearest then "Number of dimensions must be at least 1 and no more than 6"
          else "Number of dimensions must be at least 1 and no more than 8"))) ∧
    (1 ≤ dims.length ∧ dims.length ≤ (if kind = .nearest then 6 else 8) →
      (starts.size ≠ dims.length ∨ steps.size ≠ dims.length →
        RegularObj.construct kind dims starts steps vals =
          .error (.validationError "Grid dimension mismatch")) ∧
      (starts.size = dims.length ∧ steps.size = dims.length →
        ((vals.size : Int) ≠ dims.prod →
          RegularObj.construct kind dims starts steps vals =
            .error (.validationError "Size of value array does not match grid dims")) ∧
        ((vals.size : Int) = dims.prod →
          (¬ steps.Satisfies AllPositive →
            RegularObj.construct kind dims starts steps vals =
              .error (.validationError "All grid steps must be positive and nonzero")) ∧
          (steps.Satisfies AllPositive →
            ¬ (steps.dtype = vals.dtype ∧ (kind = .nearest → starts.dtype = vals.dtype)) →
            RegularObj.construct kind dims starts steps vals = .error (.validationError
              "All grid inputs must be of the same data type (np.float32 or np.float64)"))))) := by
  unfold RegularObj.construct RegularObj.validate pyAssert
  have hprod : dims.foldl (· * ·) 1 = dims.prod := by rw [List.prod_eq_foldl]
  have hm := maxDims_eq kind
  have hpos := Arr.allPositive_iff steps
  have hmsg : kind.ndimsMsg = if kind = .nearest then
      "Number of dimensions must be at least 1 and no more than 6"
      else "Number of dimensions must be at least 1 and no more than 8" := by cases kind <;> rfl
  simp only [hprod, hm, hmsg]
  refine ⟨fun h => ?_, fun h => ⟨fun h2 => ?_, fun h2 => ⟨fun h3 => ?_, fun h3 =>
    ⟨fun h4 => ?_, fun h4 h5 => ?_⟩⟩⟩⟩
  · have : (decide (dims.length ≤ if kind = .nearest then 6 else 8) && decide (1 ≤ dims.length)) =
        false := by
      rw [Bool.and_eq_false_iff, decide_eq_false_iff_not, decide_eq_false_iff_not]
      omega
    rw [this]; rfl
  all_goals
    have h1 : (decide (dims.length ≤ if kind = .nearest then 6 else 8) && decide (1 ≤ dims.length)) =
        true := by
      rw [Bool.and_eq_true, decide_eq_true_eq, decide_eq_true_eq]
      exact ⟨h.2, h.1⟩
    rw [h1]
  · by_cases hs : starts.size = dims.length
    · have : steps.size ≠ dims.length := by tauto
      simp [hs, this, Bind.bind, Except.bind]
    · simp [hs, Bind.bind, Except.bind]
  · simp [h2.1, h2.2, h3, Bind.bind, Except.bind]
  · rw [← hpos] at h4
    simp [h2.1, h2.2, h3, h4, Bind.bind, Except.bind]
  · rw [← hpos] at h4
    have : (RegularObj.dtypeChecked ⟨kind, dims, starts, steps, vals⟩).all
        (fun x => x.dtype == vals.dtype) = false := by
      unfold RegularObj.dtypeChecked
      cases kind <;> simp_all
      tauto
    simp [h2.1, h2.2, h3, h4, this, Bind.bind, Except.bind]

/-- C58: likewise for rectilinear grids: number of axes, number of values, order, element types. -/
theorem C58_rectilinear_messages (kind : ClassKind) (grids : List (Arr F32 F64))
    (vals : Arr F32 F64) :
    (grids.length = 0 ∨ (if kind = .nearest then 6 else 8) < grids.length →
      RectilinearObj.construct kind grids vals = .error (.validationError
        (if kind = .nearest then "Number of dimensions must be at least 1 and no more than 6"
          else "Number of dimensions must be at least 1 and no more than 8"))) ∧
    (1 ≤ grids.length ∧ grids.length ≤ (if kind = .nearest then 6 else 8) →
      (vals.size ≠ (grids.map Arr.size).prod →
        RectilinearObj.construct kind grids vals =
          .error (.validationError "Size of value array does not match grid dims")) ∧
      (vals.size = (grids.map Arr.size).prod →
        ((∃ g ∈ grids, ¬ g.Satisfies IncreasingSteps) →
          RectilinearObj.construct kind grids vals =
            .error (.validationError "All grids must be monotonically increasing")) ∧
        ((∀ g ∈ grids, g.Satisfies IncreasingSteps) → (∃ g ∈ grids, g.dtype ≠ vals.dtype) →
          RectilinearObj.construct kind grids vals = .error (.validationError
            "All grid inputs must be of the same data type (np.float32 or np.float64)")))) := by
  unfold RectilinearObj.construct RectilinearObj.validate pyAssert
  have hprod : RectilinearObj.dims (⟨kind, grids, vals⟩ : RectilinearObj F32 F64) =
      grids.map Arr.size := rfl
  have hm := maxDims_eq kind
  have hmsg : kind.ndimsMsg = if kind = .nearest then
      "Number of dimensions must be at least 1 and no more than 6"
      else "Number of dimensions must be at least 1 and no more than 8" := by cases kind <;> rfl
  simp only [hprod, hm, hmsg, ← List.prod_eq_foldl]
  refine ⟨fun h => ?_, fun h => ⟨fun h3 => ?_, fun h3 => ⟨fun h4 => ?_, fun h4 h5 => ?_⟩⟩⟩
  · have : (decide (grids.length ≤ if kind = .nearest then 6 else 8) && decide (1 ≤ grids.length)) =
        false := by
      rw [Bool.and_eq_false_iff, decide_eq_false_iff_not, decide_eq_false_iff_not]
      omega
    rw [this]; rfl
  all_goals
    have h1 : (decide (grids.length ≤ if kind = .nearest then 6 else 8) &&
        decide (1 ≤ grids.length)) = true := by
      rw [Bool.and_eq_true, decide_eq_true_eq, decide_eq_true_eq]
      exact ⟨h.2, h.1⟩
    rw [h1]
  · simp [h3, Bind.bind, Except.bind]
  · have : grids.all Arr.allIncreasing = false := by
      rw [Bool.eq_false_iff]
      intro hc
      obtain ⟨g, hg, hn⟩ := h4
      exact hn ((Arr.allIncreasing_iff g).1 (List.all_eq_true.1 hc g hg))
    simp [h3, this, Bind.bind, Except.bind]
  · have h4' : grids.all Arr.allIncreasing = true :=
      List.all_eq_true.2 fun g hg => (Arr.allIncreasing_iff g).2 (h4 g hg)
    have : (grids.all fun x => x.dtype == vals.dtype) = false := by
      rw [Bool.eq_false_iff]
      intro hc
      obtain ⟨g, hg, hn⟩ := h5
      exact hn (by simpa using List.all_eq_true.1 hc g hg)
    simp [h3, h4', this, Bind.bind, Except.bind]

/-- C58: `new` casts everything to float64 if the values are float64. -/
theorem C58_new_f64 (np : Numpy F32 F64 X) (kind : ClassKind) (dims : List Int)
    (starts steps : NpArray F32 F64 X) (grids : List (NpArray F32 F64 X)) (d : List F64) :
    RegularObj.new np kind dims starts steps (.f64 d) = RegularObj.construct kind dims
      (.f64 (starts.values64 np)) (.f64 (steps.values64 np)) (.f64 d) ∧
    RectilinearObj.new np kind grids (.f64 d) = RectilinearObj.construct kind
      (grids.map fun g => .f64 (g.values64 np)) (.f64 d) := by
  have h : ∀ a : NpArray F32 F64 X, NpArray.arrtype np (.f64 d) a = .f64 (a.values64 np) := by
    intro a; cases a <;> rfl
  constructor
  · unfold RegularObj.new
    rw [h, h, h]; rfl
  · unfold RectilinearObj.new
    rw [h, funext h]; rfl

/-- C58: `new` casts everything to float32 otherwise, also values of an integer type. -/
theorem C58_new_f32 (np : Numpy F32 F64 X) (kind : ClassKind) (dims : List Int)
    (starts steps : NpArray F32 F64 X) (grids : List (NpArray F32 F64 X)) (vals : NpArray F32 F64 X)
    (hv : ∀ d, vals ≠ .f64 d) :
    RegularObj.new np kind dims starts steps vals = RegularObj.construct kind dims
      (.f32 (starts.values32 np)) (.f32 (steps.values32 np)) (.f32 (vals.values32 np)) ∧
    RectilinearObj.new np kind grids vals = RectilinearObj.construct kind
      (grids.map fun g => .f32 (g.values32 np)) (.f32 (vals.values32 np)) := by
  have h : ∀ a : NpArray F32 F64 X, NpArray.arrtype np vals a = .f32 (a.values32 np) := by
    intro a
    cases vals with
    | f64 d => exact absurd rfl (hv d)
    | f32 d => cases a <;> rfl
    | other d => cases a <;> rfl
  constructor
  · unfold RegularObj.new
    rw [h, h, h]
  · unfold RectilinearObj.new
    rw [h, funext h]


/-! #### C59, C60, C61 for float64 -/

theorem RegularObj.evalUnchecked_f64 (np : Numpy F32 F64 X) (fma : Bool) (kind : ClassKind)
    (dims : List Nat) (starts steps vals : List F64) (obs : List (List F64)) (o : List F64)
    (hd : ∀ d ∈ dims, d ≤ usizeMax) (h8 : obs.length ≤ 8) :
    RegularObj.evalUnchecked np fma (F32 := F32) (F64 := F64)
      ⟨kind, dims.map fun d : Nat => (d : Int), .f64 starts, .f64 steps, .f64 vals⟩
      (obs.map NpArray.f64) (some (.f64 o)) =
      pyOutcome NpArray.f64 (kind.runRegular fma dims starts steps vals obs o) := by
  unfold RegularObj.evalUnchecked
  simp only [npOut, ok_bind', pyEach_pyUsize hd, Arr.asF64,
    pyEach_ok (f := NpArray.asF64) (g := NpArray.f64) (fun _ => rfl), NpArray.asF64,
    rawRegular_kind _ _ _ _ _ _ _ _ h8]
  exact pyOfRes_wrap _ _

theorem RectilinearObj.evalUnchecked_f64 (np : Numpy F32 F64 X) (fma : Bool) (kind : ClassKind)
    (grids : List (List F64)) (vals : List F64) (obs : List (List F64)) (o : List F64)
    (h8 : obs.length ≤ 8) (h8' : grids.length ≤ 8) :
    RectilinearObj.evalUnchecked np fma (F32 := F32) (F64 := F64)
      ⟨kind, grids.map Arr.f64, .f64 vals⟩ (obs.map NpArray.f64) (some (.f64 o)) =
      pyOutcome NpArray.f64 (kind.runRectilinear fma grids vals obs o) := by
  unfold RectilinearObj.evalUnchecked
  simp only [npOut, ok_bind', pyEach_ok (f := Arr.asF64) (g := Arr.f64) (fun _ => rfl),
    pyEach_ok (f := NpArray.asF64) (g := NpArray.f64) (fun _ => rfl), NpArray.asF64,
    rawRectilinear_kind _ _ _ _ _ _ h8 h8']
  exact pyOfRes_wrap _ _

/-- C59, regular grids of float64: `eval` and `eval_unchecked` return what the Rust entry point
writes to the given buffer, or to zeros; `Err` is raised as `AssertionError`. -/
theorem C59_regular_f64 (np : Numpy F32 F64 X) (fma : Bool) (kind : ClassKind) (dims : List Nat)
    (starts steps vals : List F64) (obs : List (List F64)) (hd : ∀ d ∈ dims, d ≤ usizeMax)
    (h8 : obs.length ≤ 8) :
    let m : RegularObj F32 F64 :=
      ⟨kind, dims.map fun d : Nat => (d : Int), .f64 starts, .f64 steps, .f64 vals⟩
    (∀ o, m.eval np fma (obs.map .f64) (some (.f64 o)) =
      pyOutcome .f64 (kind.runRegular fma dims starts steps vals obs o)) ∧
    (∀ o rest, obs = o :: rest → m.eval np fma (obs.map .f64) none =
      pyOutcome .f64 (kind.runRegular fma dims starts steps vals obs
        (List.replicate o.length zero))) ∧
    (∀ obs' out, m.evalUnchecked np fma obs' out = m.eval np fma obs' out) := by
  refine ⟨fun o => ?_, fun o rest ho => ?_, fun obs' out => ?_⟩
  · exact RegularObj.evalUnchecked_f64 np fma kind dims starts steps vals obs o hd h8
  · subst ho
    exact RegularObj.evalUnchecked_f64 np fma kind dims starts steps vals _ _ hd h8
  · unfold RegularObj.eval RegularObj.evalUnchecked
    cases h : npOut np obs' out with
    | error e => rfl
    | ok o => rfl

/-- C59, rectilinear grids of float64. -/
theorem C59_rectilinear_f64 (np : Numpy F32 F64 X) (fma : Bool) (kind : ClassKind)
    (grids : List (List F64)) (vals : List F64) (obs : List (List F64)) (h8 : obs.length ≤ 8)
    (h8' : grids.length ≤ 8) :
    let m : RectilinearObj F32 F64 := ⟨kind, grids.map .f64, .f64 vals⟩
    (∀ o, m.eval np fma (obs.map .f64) (some (.f64 o)) =
      pyOutcome .f64 (kind.runRectilinear fma grids vals obs o)) ∧
    (∀ o rest, obs = o :: rest → m.eval np fma (obs.map .f64) none =
      pyOutcome .f64 (kind.runRectilinear fma grids vals obs (List.replicate o.length zero))) ∧
    (∀ obs' out, m.evalUnchecked np fma obs' out = m.eval np fma obs' out) := by
  refine ⟨fun o => ?_, fun o rest ho => ?_, fun obs' out => ?_⟩
  · exact RectilinearObj.evalUnchecked_f64 np fma kind grids vals obs o h8 h8'
  · subst ho
    exact RectilinearObj.evalUnchecked_f64 np fma kind grids vals _ _ h8 h8'
  · unfold RectilinearObj.eval RectilinearObj.evalUnchecked
    cases h : npOut np obs' out with
    | error e => rfl
    | ok o => rfl

theorem RegularObj.Valid.accepted_f64 {kind : ClassKind} {dims : Fin N → Nat}
    {starts steps : Fin N → F64} {vals : List F64}
    (hv : RegularObj.Valid (F32 := F32) (F64 := F64) ⟨kind, (List.ofFn dims).map fun d : Nat => (d : Int),
      .f64 (List.ofFn starts), .f64 (List.ofFn steps), .f64 vals⟩)
    (hs : IsSlice vals) (hmin : ∀ k, kind.minNodes ≤ dims k) :
    RegularAccepted kind.minNodes dims steps vals := by
  refine ⟨hs, ?_, hmin, ?_⟩
  · have := hv.vals
    simp only [Arr.size] at this
    rw [← List.prod_ofFn]
    have e : ((List.ofFn dims).map fun d : Nat => (d : Int)).prod = (((List.ofFn dims).prod : Nat) : Int) := by
      rw [Nat.cast_list_prod]
    rw [e] at this
    exact_mod_cast this
  · intro k
    exact hv.positive _ (by simp)

theorem RectilinearObj.Valid.accepted_f64 (hsub : SubDetectsOrder F64) {kind : ClassKind}
    {grids : Fin N → List F64} {vals : List F64}
    (hv : RectilinearObj.Valid (F32 := F32) (F64 := F64)
      ⟨kind, (List.ofFn grids).map .f64, .f64 vals⟩)
    (hs : IsSlice vals) (hmin : ∀ k, kind.minNodes ≤ (grids k).length) :
    RectilinearAccepted kind.minNodes grids vals := by
  refine ⟨hs, ?_, hmin, fun k => ?_⟩
  · have := hv.vals
    simp only [Arr.size, List.map_map] at this
    rw [← List.prod_ofFn, this, List.map_ofFn]
    rfl
  · refine secondExceedsFirst_of_increasing hsub ?_
      (hv.increasing (.f64 (grids k)) (List.mem_map.2 ⟨grids k, by simp, rfl⟩))
    have := hmin k
    have h2 : 2 ≤ kind.minNodes := by cases kind <;> simp [ClassKind.minNodes]
    omega

/-- C60, regular grids of float64: an object accepted by its class, with enough nodes on every
axis, evaluates every observation by itself (`BatchSpec`) as the Rust interface does. -/
theorem C60_regular_f64 (np : Numpy F32 F64 X) (fma : Bool) (kind : ClassKind) (dims : Fin N → Nat)
    (starts steps : Fin N → F64) (vals : List F64) (hs : IsSlice vals)
    (hu : ∀ k, dims k ≤ usizeMax) (hmin : ∀ k, kind.minNodes ≤ dims k)
    (m : RegularObj F32 F64)
    (hm : RegularObj.construct kind ((List.ofFn dims).map fun d : Nat => (d : Int))
      (.f64 (List.ofFn starts)) (.f64 (List.ofFn steps)) (.f64 vals) = .ok m) :
    ∃ interp, BatchSpec (kind.regularAt fma dims starts steps vals) interp ∧
      (∀ obs o, m.eval np fma ((List.ofFn obs).map .f64) (some (.f64 o)) =
        pyOutcome .f64 (interp obs o)) ∧
      (∀ obs, ∀ n, (∀ k, (obs k).length = n) → m.eval np fma ((List.ofFn obs).map .f64) none =
        pyOutcome .f64 (interp obs (List.replicate n zero))) := by
  have hv : RegularObj.Valid (F32 := F32) (F64 := F64)
      ⟨kind, (List.ofFn dims).map fun d : Nat => (d : Int), .f64 (List.ofFn starts),
        .f64 (List.ofFn steps), .f64 vals⟩ := by
    by_contra h
    obtain ⟨msg, h'⟩ := (C58_regular kind _ _ _ _).2 h
    rw [hm] at h'; cases h'
  have hm' := (C58_regular kind _ _ _ _).1 hv
  rw [hm] at hm'
  cases hm'
  have hn := hv.ndims
  simp only [List.length_map, List.length_ofFn] at hn
  have h8 : N ≤ 8 := by have := hn.2; split at this <;> omega
  refine ⟨_, kind.runRegular_spec fma hn.1 hn.2 dims starts steps vals
    (hv.accepted_f64 hs hmin), fun obs o => ?_, fun obs n hobs => ?_⟩
  · exact (C59_regular_f64 np fma kind (List.ofFn dims) _ _ vals (List.ofFn obs)
      (by simpa [List.forall_mem_ofFn_iff] using hu) (by simpa using h8)).1 o
  · have hl : (List.ofFn obs).length = N := List.length_ofFn
    obtain ⟨o, rest, ho⟩ : ∃ o rest, List.ofFn obs = o :: rest := by
      cases h : List.ofFn obs with
      | nil => rw [h] at hl; simp at hl; omega
      | cons o rest => exact ⟨o, rest, rfl⟩
    have hol : o.length = n := by
      have hmem : o ∈ List.ofFn obs := by rw [ho]; simp
      rw [List.mem_ofFn] at hmem
      obtain ⟨k, rfl⟩ := hmem
      exact hobs k
    rw [← hol]
    exact (C59_regular_f64 np fma kind (List.ofFn dims) _ _ vals (List.ofFn obs)
      (by simpa [List.forall_mem_ofFn_iff] using hu) (by simpa using h8)).2.1 o rest ho

/-- C60, rectilinear grids of float64: same, and every batch of observations of equal length
succeeds. -/
theorem C60_rectilinear_f64 (np : Numpy F32 F64 X) (fma : Bool) (hsub : SubDetectsOrder F64)
    (kind : ClassKind) (grids : Fin N → List F64) (vals : List F64) (hs : IsSlice vals)
    (hmin : ∀ k, kind.minNodes ≤ (grids k).length) (m : RectilinearObj F32 F64)
    (hm : RectilinearObj.construct kind ((List.ofFn grids).map .f64) (.f64 vals) = .ok m)
    (obs : Fin N → List F64) (n : Nat) (hobs : ∀ k, (obs k).length = n) :
    ∃ vs : List F64, vs.length = n ∧ ResultsOf (kind.rectilinearAt fma grids vals) obs vs ∧
      m.eval np fma ((List.ofFn obs).map .f64) none = .ok (.f64 vs) ∧
      ∀ o : List F64, o.length = n →
        m.eval np fma ((List.ofFn obs).map .f64) (some (.f64 o)) = .ok (.f64 vs) := by
  have hv : RectilinearObj.Valid (F32 := F32) (F64 := F64)
      ⟨kind, (List.ofFn grids).map .f64, .f64 vals⟩ := by
    by_contra h
    obtain ⟨msg, h'⟩ := (C58_rectilinear kind _ _).2 h
    rw [hm] at h'; cases h'
  have hm' := (C58_rectilinear kind _ _).1 hv
  rw [hm] at hm'
  cases hm'
  have hn := hv.ndims
  simp only [List.length_map, List.length_ofFn] at hn
  have h8 : N ≤ 8 := by have := hn.2; split at this <;> omega
  have hG := hv.accepted_f64 hsub hs hmin
  have hspec := kind.runRectilinear_spec fma hn.1 hn.2 grids vals hG
  have htot := kind.rectilinearAt_total fma hn.1 grids vals hG
  have hC := C59_rectilinear_f64 (F32 := F32) (F64 := F64) np fma kind (List.ofFn grids) vals
    (List.ofFn obs) (by simpa using h8) (by simpa using h8)
  obtain ⟨vs, hrun, hlen, hres⟩ := hspec.all_ok htot obs (List.replicate n zero)
    (by simpa using hobs)
  simp only [List.length_replicate] at hlen
  have hall : ∀ o : List F64, o.length = n →
      kind.runRectilinear fma (List.ofFn grids) vals (List.ofFn obs) o = (.ok (), vs) := by
    intro o ho
    exact (hspec.ok_iff obs o vs).2 ⟨fun k => (hobs k).trans ho.symm, hlen.trans ho.symm, hres⟩
  refine ⟨vs, hlen, hres, ?_, fun o ho => ?_⟩
  · have hl : (List.ofFn obs).length = N := List.length_ofFn
    obtain ⟨o, rest, ho⟩ : ∃ o rest, List.ofFn obs = o :: rest := by
      cases h : List.ofFn obs with
      | nil => rw [h] at hl; simp at hl; omega
      | cons o rest => exact ⟨o, rest, rfl⟩
    have hol : o.length = n := by
      have hmem : o ∈ List.ofFn obs := by rw [ho]; simp
      rw [List.mem_ofFn] at hmem
      obtain ⟨k, rfl⟩ := hmem
      exact hobs k
    rw [hC.2.1 o rest ho, hall _ (by simpa using hol)]; rfl
  · rw [hC.1 o, hall o ho]; rfl

/-- C60: what the classes leave unchecked. An accepted object with an axis of too few nodes (but
at least one) raises an `AssertionError` on every evaluation. -/
theorem C60_too_few_nodes_f64 (np : Numpy F32 F64 X) (fma : Bool) (kind : ClassKind)
    (vals : List F64) (hs : IsSlice vals) (obs : Fin N → List F64) (o : List F64) :
    (∀ (dims : Fin N → Nat) (starts steps : Fin N → F64) (m : RegularObj F32 F64),
      RegularObj.construct kind ((List.ofFn dims).map fun d : Nat => (d : Int))
        (.f64 (List.ofFn starts)) (.f64 (List.ofFn steps)) (.f64 vals) = .ok m →
      (∀ k, dims k ≤ usizeMax) → (∀ k, 1 ≤ dims k) → (∃ k, dims k < kind.minNodes) →
      m.eval np fma ((List.ofFn obs).map .f64) (some (.f64 o)) =
        .error (.assertionError kind.tooFewRegular)) ∧
    (∀ (grids : Fin N → List F64) (m : RectilinearObj F32 F64),
      RectilinearObj.construct kind ((List.ofFn grids).map .f64) (.f64 vals) = .ok m →
      (∀ k, 1 ≤ (grids k).length) → (∃ k, (grids k).length < kind.minNodes) →
      m.eval np fma ((List.ofFn obs).map .f64) (some (.f64 o)) =
        .error (.assertionError kind.tooFewRectilinear)) := by
  constructor
  · intro dims starts steps m hm hu h1 hfew
    have hv : RegularObj.Valid (F32 := F32) (F64 := F64)
        ⟨kind, (List.ofFn dims).map fun d : Nat => (d : Int), .f64 (List.ofFn starts),
          .f64 (List.ofFn steps), .f64 vals⟩ := by
      by_contra h
      obtain ⟨msg, h'⟩ := (C58_regular kind _ _ _ _).2 h
      rw [hm] at h'; cases h'
    have hm' := (C58_regular kind _ _ _ _).1 hv
    rw [hm] at hm'
    cases hm'
    have hn := hv.ndims
    simp only [List.length_map, List.length_ofFn] at hn
    have h8 : N ≤ 8 := by have := hn.2; split at this <;> omega
    have hl : vals.length = (List.ofFn dims).prod := by
      have := hv.vals
      simp only [Arr.size] at this
      rw [← Nat.cast_list_prod] at this
      exact_mod_cast this
    have hfit : ProductFits (List.ofFn dims) := by
      refine productFits_of_pos (fun d hd => ?_) ?_
      · rw [List.mem_ofFn] at hd
        obtain ⟨k, rfl⟩ := hd
        exact h1 k
      · rw [← hl]
        rw [isSlice_iff] at hs
        simp only [isizeMax, usizeMax] at *
        omega
    rw [(C59_regular_f64 np fma kind (List.ofFn dims) _ _ vals (List.ofFn obs)
      (by simpa [List.forall_mem_ofFn_iff] using hu) (by simpa using h8)).1 o,
      kind.runRegular_tooFew fma hn.1 hn.2 dims starts steps vals hfit hl hfew]
    rfl
  · intro grids m hm h1 hfew
    have hv : RectilinearObj.Valid (F32 := F32) (F64 := F64)
        ⟨kind, (List.ofFn grids).map .f64, .f64 vals⟩ := by
      by_contra h
      obtain ⟨msg, h'⟩ := (C58_rectilinear kind _ _).2 h
      rw [hm] at h'; cases h'
    have hm' := (C58_rectilinear kind _ _).1 hv
    rw [hm] at hm'
    cases hm'
    have hn := hv.ndims
    simp only [List.length_map, List.length_ofFn] at hn
    have h8 : N ≤ 8 := by have := hn.2; split at this <;> omega
    have hl : vals.length = ((List.ofFn grids).map List.length).prod := by
      have := hv.vals
      rw [List.map_map] at this
      exact this
    have hfit : ProductFits ((List.ofFn grids).map List.length) := by
      refine productFits_of_pos (fun d hd => ?_) ?_
      · rw [List.mem_map] at hd
        obtain ⟨g, hg, rfl⟩ := hd
        rw [List.mem_ofFn] at hg
        obtain ⟨k, rfl⟩ := hg
        exact h1 k
      · rw [← hl]
        rw [isSlice_iff] at hs
        simp only [isizeMax, usizeMax] at *
        omega
    rw [(C59_rectilinear_f64 np fma kind (List.ofFn grids) vals (List.ofFn obs)
      (by simpa using h8) (by simpa using h8)).1 o,
      kind.runRectilinear_tooFew fma hn.1 hn.2 grids vals hfit hl hfew]
    rfl

/-- C61, regular grids of float64: the bounds check of the classes returns one flag per axis, set
exactly when some observation on that axis is outside the grid by `atol` or more. -/
theorem C61_regular_f64 (np : Numpy F32 F64 X) (kind : ClassKind) (h8 : N ≤ 8) (dims : Fin N → Nat)
    (starts steps : Fin N → F64) (vals : List F64) (hu : ∀ k, dims k ≤ usizeMax)
    (hd : ∀ k, 1 ≤ dims k) (last : Fin N → F64)
    (hlast : ∀ k, ofUsize (dims k - 1) = some (last k)) (obs : Fin N → List F64) (atol : F64) :
    ∃ flags : Fin N → Bool,
      RegularObj.checkBounds np (F32 := F32) (F64 := F64)
        ⟨kind, (List.ofFn dims).map fun d : Nat => (d : Int), .f64 (List.ofFn starts),
          .f64 (List.ofFn steps), .f64 vals⟩ ((List.ofFn obs).map .f64) atol =
        .ok (List.ofFn flags) ∧
      ∀ k, flags k = true ↔ ∃ x ∈ obs k,
        ((x -. fmin (starts k) (starts k +. steps k *. last k)) <=. (-. atol)) = true ∨
        (atol <=. (x -. fmax (starts k) (starts k +. steps k *. last k))) = true := by
  obtain ⟨flags, h1, h2⟩ := C38_flags dims starts steps obs (atol)
    (List.replicate N false) (by simp) hd last hlast
  refine ⟨flags, ?_, h2⟩
  have hu8 : unpackOk (List.ofFn obs) = true := by unfold unpackOk; simpa using h8
  unfold RegularObj.checkBounds
  simp only [ok_bind', pyEach_pyUsize
    (show ∀ d ∈ List.ofFn dims, d ≤ usizeMax by simpa [List.forall_mem_ofFn_iff] using hu),
    Arr.asF64, pyEach_ok (f := NpArray.asF64) (g := NpArray.f64) (fun _ => rfl), hu8, Bool.not_true,
    Bool.false_eq_true, if_false, List.length_map, List.length_ofFn, h1]
  rfl

/-- C61, rectilinear grids of float64. -/
theorem C61_rectilinear_f64 (np : Numpy F32 F64 X) (kind : ClassKind) (h8 : N ≤ 8)
    (grids : Fin N → List F64) (vals : List F64) (hg : ∀ k, grids k ≠ [])
    (obs : Fin N → List F64) (atol : F64) :
    ∃ flags : Fin N → Bool,
      RectilinearObj.checkBounds np (F32 := F32) (F64 := F64)
        ⟨kind, (List.ofFn grids).map .f64, .f64 vals⟩ ((List.ofFn obs).map .f64) atol =
        .ok (List.ofFn flags) ∧
      ∀ k, flags k = true ↔ ∃ x ∈ obs k,
        ((x -. (grids k).head (hg k)) <=. (-. atol)) = true ∨
        (atol <=. (x -. (grids k).getLast (hg k))) = true := by
  obtain ⟨flags, h1, h2⟩ := C39_flags grids obs (atol) (List.replicate N false) (by simp) hg
  refine ⟨flags, ?_, h2⟩
  have hu8 : unpackOk (List.ofFn obs) = true := by unfold unpackOk; simpa using h8
  have hg8 : unpackOk (List.ofFn grids) = true := by unfold unpackOk; simpa using h8
  unfold RectilinearObj.checkBounds
  simp only [ok_bind', pyEach_ok (f := Arr.asF64) (g := Arr.f64) (fun _ => rfl),
    pyEach_ok (f := NpArray.asF64) (g := NpArray.f64) (fun _ => rfl), hu8, hg8, Bool.and_self,
    Bool.not_true, Bool.false_eq_true, if_false, List.length_map, List.length_ofFn, h1]
  rfl

/-! #### C59, C60, C61 for float32 -/

theorem RegularObj.evalUnchecked_f32 (np : Numpy F32 F64 X) (fma : Bool) (kind : ClassKind)
    (dims : List Nat) (starts steps vals : List F32) (obs : List (List F32)) (o : List F32)
    (hd : ∀ d ∈ dims, d ≤ usizeMax) (h8 : obs.length ≤ 8) :
    RegularObj.evalUnchecked np fma (F32 := F32) (F64 := F64)
      ⟨kind, dims.map fun d : Nat => (d : Int), .f32 starts, .f32 steps, .f32 vals⟩
      (obs.map NpArray.f32) (some (.f32 o)) =
      pyOutcome NpArray.f32 (kind.runRegular fma dims starts steps vals obs o) := by
  unfold RegularObj.evalUnchecked
  simp only [npOut, ok_bind', pyEach_pyUsize hd, Arr.asF32,
    pyEach_ok (f := NpArray.asF32) (g := NpArray.f32) (fun _ => rfl), NpArray.asF32,
    rawRegular_kind _ _ _ _ _ _ _ _ h8]
  exact pyOfRes_wrap _ _

theorem RectilinearObj.evalUnchecked_f32 (np : Numpy F32 F64 X) (fma : Bool) (kind : ClassKind)
    (grids : List (List F32)) (vals : List F32) (obs : List (List F32)) (o : List F32)
    (h8 : obs.length ≤ 8) (h8' : grids.length ≤ 8) :
    RectilinearObj.evalUnchecked np fma (F32 := F32) (F64 := F64)
      ⟨kind, grids.map Arr.f32, .f32 vals⟩ (obs.map NpArray.f32) (some (.f32 o)) =
      pyOutcome NpArray.f32 (kind.runRectilinear fma grids vals obs o) := by
  unfold RectilinearObj.evalUnchecked
  simp only [npOut, ok_bind', pyEach_ok (f := Arr.asF32) (g := Arr.f32) (fun _ => rfl),
    pyEach_ok (f := NpArray.asF32) (g := NpArray.f32) (fun _ => rfl), NpArray.asF32,
    rawRectilinear_kind _ _ _ _ _ _ h8 h8']
  exact pyOfRes_wrap _ _

/-- C59, regular grids of float32: `eval` and `eval_unchecked` return what the Rust entry point
writes to the given buffer, or to zeros; `Err` is raised as `AssertionError`. -/
theorem C59_regular_f32 (np : Numpy F32 F64 X) (fma : Bool) (kind : ClassKind) (dims : List Nat)
    (starts steps vals : List F32) (obs : List (List F32)) (hd : ∀ d ∈ dims, d ≤ usizeMax)
    (h8 : obs.length ≤ 8) :
    let m : RegularObj F32 F64 :=
      ⟨kind, dims.map fun d : Nat => (d : Int), .f32 starts, .f32 steps, .f32 vals⟩
    (∀ o, m.eval np fma (obs.map .f32) (some (.f32 o)) =
      pyOutcome .f32 (kind.runRegular fma dims starts steps vals obs o)) ∧
    (∀ o rest, obs = o :: rest → m.eval np fma (obs.map .f32) none =
      pyOutcome .f32 (kind.runRegular fma dims starts steps vals obs
        (List.replicate o.length zero))) ∧
    (∀ obs' out, m.evalUnchecked np fma obs' out = m.eval np fma obs' out) := by
  refine ⟨fun o => ?_, fun o rest ho => ?_, fun obs' out => ?_⟩
  · exact RegularObj.evalUnchecked_f32 np fma kind dims starts steps vals obs o hd h8
  · subst ho
    exact RegularObj.evalUnchecked_f32 np fma kind dims starts steps vals _ _ hd h8
  · unfold RegularObj.eval RegularObj.evalUnchecked
    cases h : npOut np obs' out with
    | error e => rfl
    | ok o => rfl

/-- C59, rectilinear grids of float32. -/
theorem C59_rectilinear_f32 (np : Numpy F32 F64 X) (fma : Bool) (kind : ClassKind)
    (grids : List (List F32)) (vals : List F32) (obs : List (List F32)) (h8 : obs.length ≤ 8)
    (h8' : grids.length ≤ 8) :
    let m : RectilinearObj F32 F64 := ⟨kind, grids.map .f32, .f32 vals⟩
    (∀ o, m.eval np fma (obs.map .f32) (some (.f32 o)) =
      pyOutcome .f32 (kind.runRectilinear fma grids vals obs o)) ∧
    (∀ o rest, obs = o :: rest → m.eval np fma (obs.map .f32) none =
      pyOutcome .f32 (kind.runRectilinear fma grids vals obs (List.replicate o.length zero))) ∧
    (∀ obs' out, m.evalUnchecked np fma obs' out = m.eval np fma obs' out) := by
  refine ⟨fun o => ?_, fun o rest ho => ?_, fun obs' out => ?_⟩
  · exact RectilinearObj.evalUnchecked_f32 np fma kind grids vals obs o h8 h8'
  · subst ho
    exact RectilinearObj.evalUnchecked_f32 np fma kind grids vals _ _ h8 h8'
  · unfold RectilinearObj.eval RectilinearObj.evalUnchecked
    cases h : npOut np obs' out with
    | error e => rfl
    | ok o => rfl

theorem RegularObj.Valid.accepted_f32 {kind : ClassKind} {dims : Fin N → Nat}
    {starts steps : Fin N → F32} {vals : List F32}
    (hv : RegularObj.Valid (F32 := F32) (F64 := F64) ⟨kind, (List.ofFn dims).map fun d : Nat => (d : Int),
      .f32 (List.ofFn starts), .f32 (List.ofFn steps), .f32 vals⟩)
    (hs : IsSlice vals) (hmin : ∀ k, kind.minNodes ≤ dims k) :
    RegularAccepted kind.minNodes dims steps vals := by
  refine ⟨hs, ?_, hmin, ?_⟩
  · have := hv.vals
    simp only [Arr.size] at this
    rw [← List.prod_ofFn]
    have e : ((List.ofFn dims).map fun d : Nat => (d : Int)).prod = (((List.ofFn dims).prod : Nat) : Int) := by
      rw [Nat.cast_list_prod]
    rw [e] at this
    exact_mod_cast this
  · intro k
    exact hv.positive _ (by simp)

theorem RectilinearObj.Valid.accepted_f32 (hsub : SubDetectsOrder F32) {kind : ClassKind}
    {grids : Fin N → List F32} {vals : List F32}
    (hv : RectilinearObj.Valid (F32 := F32) (F64 := F64)
      ⟨kind, (List.ofFn grids).map .f32, .f32 vals⟩)
    (hs : IsSlice vals) (hmin : ∀ k, kind.minNodes ≤ (grids k).length) :
    RectilinearAccepted kind.minNodes grids vals := by
  refine ⟨hs, ?_, hmin, fun k => ?_⟩
  · have := hv.vals
    simp only [Arr.size, List.map_map] at this
    rw [← List.prod_ofFn, this, List.map_ofFn]
    rfl
  · refine secondExceedsFirst_of_increasing hsub ?_
      (hv.increasing (.f32 (grids k)) (List.mem_map.2 ⟨grids k, by simp, rfl⟩))
    have := hmin k
    have h2 : 2 ≤ kind.minNodes := by cases kind <;> simp [ClassKind.minNodes]
    omega

/-- C60, regular grids of float32: an object accepted by its class, with enough nodes on every
axis, evaluates every observation by itself (`BatchSpec`) as the Rust interface does. -/
theorem C60_regular_f32 (np : Numpy F32 F64 X) (fma : Bool) (kind : ClassKind) (dims : Fin N → Nat)
    (starts steps : Fin N → F32) (vals : List F32) (hs : IsSlice vals)
    (hu : ∀ k, dims k ≤ usizeMax) (hmin : ∀ k, kind.minNodes ≤ dims k)
    (m : RegularObj F32 F64)
    (hm : RegularObj.construct kind ((List.ofFn dims).map fun d : Nat => (d : Int))
      (.f32 (List.ofFn starts)) (.f32 (List.ofFn steps)) (.f32 vals) = .ok m) :
    ∃ interp, BatchSpec (kind.regularAt fma dims starts steps vals) interp ∧
      (∀ obs o, m.eval np fma ((List.ofFn obs).map .f32) (some (.f32 o)) =
        pyOutcome .f32 (interp obs o)) ∧
      (∀ obs, ∀ n, (∀ k, (obs k).length = n) → m.eval np fma ((List.ofFn obs).map .f32) none =
        pyOutcome .f32 (interp obs (List.replicate n zero))) := by
  have hv : RegularObj.Valid (F32 := F32) (F64 := F64)
      ⟨kind, (List.ofFn dims).map fun d : Nat => (d : Int), .f32 (List.ofFn starts),
        .f32 (List.ofFn steps), .f32 vals⟩ := by
    by_contra h
    obtain ⟨msg, h'⟩ := (C58_regular kind _ _ _ _).2 h
    rw [hm] at h'; cases h'
  have hm' := (C58_regular kind _ _ _ _).1 hv
  rw [hm] at hm'
  cases hm'
  have hn := hv.ndims
  simp only [List.length_map, List.length_ofFn] at hn
  have h8 : N ≤ 8 := by have := hn.2; split at this <;> omega
  refine ⟨_, kind.runRegular_spec fma hn.1 hn.2 dims starts steps vals
    (hv.accepted_f32 hs hmin), fun obs o => ?_, fun obs n hobs => ?_⟩
  · exact (C59_regular_f32 np fma kind (List.ofFn dims) _ _ vals (List.ofFn obs)
      (by simpa [List.forall_mem_ofFn_iff] using hu) (by simpa using h8)).1 o
  · have hl : (List.ofFn obs).length = N := List.length_ofFn
    obtain ⟨o, rest, ho⟩ : ∃ o rest, List.ofFn obs = o :: rest := by
      cases h : List.ofFn obs with
      | nil => rw [h] at hl; simp at hl; omega
      | cons o rest => exact ⟨o, rest, rfl⟩
    have hol : o.length = n := by
      have hmem : o ∈ List.ofFn obs := by rw [ho]; simp
      rw [List.mem_ofFn] at hmem
      obtain ⟨k, rfl⟩ := hmem
      exact hobs k
    rw [← hol]
    exact (C59_regular_f32 np fma kind (List.ofFn dims) _ _ vals (List.ofFn obs)
      (by simpa [List.forall_mem_ofFn_iff] using hu) (by simpa using h8)).2.1 o rest ho

/-- C60, rectilinear grids of float32: same, and every batch of observations of equal length
succeeds. -/
theorem C60_rectilinear_f32 (np : Numpy F32 F64 X) (fma : Bool) (hsub : SubDetectsOrder F32)
    (kind : ClassKind) (grids : Fin N → List F32) (vals : List F32) (hs : IsSlice vals)
    (hmin : ∀ k, kind.minNodes ≤ (grids k).length) (m : RectilinearObj F32 F64)
    (hm : RectilinearObj.construct kind ((List.ofFn grids).map .f32) (.f32 vals) = .ok m)
    (obs : Fin N → List F32) (n : Nat) (hobs : ∀ k, (obs k).length = n) :
    ∃ vs : List F32, vs.length = n ∧ ResultsOf (kind.rectilinearAt fma grids vals) obs vs ∧
      m.eval np fma ((List.ofFn obs).map .f32) none = .ok (.f32 vs) ∧
      ∀ o : List F32, o.length = n →
        m.eval np fma ((List.ofFn obs).map .f32) (some (.f32 o)) = .ok (.f32 vs) := by
  have hv : RectilinearObj.Valid (F32 := F32) (F64 := F64)
      ⟨kind, (List.ofFn grids).map .f32, .f32 vals⟩ := by
    by_contra h
    obtain ⟨msg, h'⟩ := (C58_rectilinear kind _ _).2 h
    rw [hm] at h'; cases h'
  have hm' := (C58_rectilinear kind _ _).1 hv
  rw [hm] at hm'
  cases hm'
  have hn := hv.ndims
  simp only [List.length_map, List.length_ofFn] at hn
  have h8 : N ≤ 8 := by have := hn.2; split at this <;> omega
  have hG := hv.accepted_f32 hsub hs hmin
  have hspec := kind.runRectilinear_spec fma hn.1 hn.2 grids vals hG
  have htot := kind.rectilinearAt_total fma hn.1 grids vals hG
  have hC := C59_rectilinear_f32 (F32 := F32) (F64 := F64) np fma kind (List.ofFn grids) vals
    (List.ofFn obs) (by simpa using h8) (by simpa using h8)
  obtain ⟨vs, hrun, hlen, hres⟩ := hspec.all_ok htot obs (List.replicate n zero)
    (by simpa using hobs)
  simp only [List.length_replicate] at hlen
  have hall : ∀ o : List F32, o.length = n →
      kind.runRectilinear fma (List.ofFn grids) vals (List.ofFn obs) o = (.ok (), vs) := by
    intro o ho
    exact (hspec.ok_iff obs o vs).2 ⟨fun k => (hobs k).trans ho.symm, hlen.trans ho.symm, hres⟩
  refine ⟨vs, hlen, hres, ?_, fun o ho => ?_⟩
  · have hl : (List.ofFn obs).length = N := List.length_ofFn
    obtain ⟨o, rest, ho⟩ : ∃ o rest, List.ofFn obs = o :: rest := by
      cases h : List.ofFn obs with
      | nil => rw [h] at hl; simp at hl; omega
      | cons o rest => exact ⟨o, rest, rfl⟩
    have hol : o.length = n := by
      have hmem : o ∈ List.ofFn obs := by rw [ho]; simp
      rw [List.mem_ofFn] at hmem
      obtain ⟨k, rfl⟩ := hmem
      exact hobs k
    rw [hC.2.1 o rest ho, hall _ (by simpa using hol)]; rfl
  · rw [hC.1 o, hall o ho]; rfl

/-- C60: what the classes leave unchecked. An accepted object with an axis of too few nodes (but
at least one) raises an `AssertionError` on every evaluation. -/
theorem C60_too_few_nodes_f32 (np : Numpy F32 F64 X) (fma : Bool) (kind : ClassKind)
    (vals : List F32) (hs : IsSlice vals) (obs : Fin N → List F32) (o : List F32) :
    (∀ (dims : Fin N → Nat) (starts steps : Fin N → F32) (m : RegularObj F32 F64),
      RegularObj.construct kind ((List.ofFn dims).map fun d : Nat => (d : Int))
        (.f32 (List.ofFn starts)) (.f32 (List.ofFn steps)) (.f32 vals) = .ok m →
      (∀ k, dims k ≤ usizeMax) → (∀ k, 1 ≤ dims k) → (∃ k, dims k < kind.minNodes) →
      m.eval np fma ((List.ofFn obs).map .f32) (some (.f32 o)) =
        .error (.assertionError kind.tooFewRegular)) ∧
    (∀ (grids : Fin N → List F32) (m : RectilinearObj F32 F64),
      RectilinearObj.construct kind ((List.ofFn grids).map .f32) (.f32 vals) = .ok m →
      (∀ k, 1 ≤ (grids k).length) → (∃ k, (grids k).length < kind.minNodes) →
      m.eval np fma ((List.ofFn obs).map .f32) (some (.f32 o)) =
        .error (.assertionError kind.tooFewRectilinear)) := by
  constructor
  · intro dims starts steps m hm hu h1 hfew
    have hv : RegularObj.Valid (F32 := F32) (F64 := F64)
        ⟨kind, (List.ofFn dims).map fun d : Nat => (d : Int), .f32 (List.ofFn starts),
          .f32 (List.ofFn steps), .f32 vals⟩ := by
      by_contra h
      obtain ⟨msg, h'⟩ := (C58_regular kind _ _ _ _).2 h
      rw [hm] at h'; cases h'
    have hm' := (C58_regular kind _ _ _ _).1 hv
    rw [hm] at hm'
    cases hm'
    have hn := hv.ndims
    simp only [List.length_map, List.length_ofFn] at hn
    have h8 : N ≤ 8 := by have := hn.2; split at this <;> omega
    have hl : vals.length = (List.ofFn dims).prod := by
      have := hv.vals
      simp only [Arr.size] at this
      rw [← Nat.cast_list_prod] at this
      exact_mod_cast this
    have hfit : ProductFits (List.ofFn dims) := by
      refine productFits_of_pos (fun d hd => ?_) ?_
      · rw [List.mem_ofFn] at hd
        obtain ⟨k, rfl⟩ := hd
        exact h1 k
      · rw [← hl]
        rw [isSlice_iff] at hs
        simp only [isizeMax, usizeMax] at *
        omega
    rw [(C59_regular_f32 np fma kind (List.ofFn dims) _ _ vals (List.ofFn obs)
      (by simpa [List.forall_mem_ofFn_iff] using hu) (by simpa using h8)).1 o,
      kind.runRegular_tooFew fma hn.1 hn.2 dims starts steps vals hfit hl hfew]
    rfl
  · intro grids m hm h1 hfew
    have hv : RectilinearObj.Valid (F32 := F32) (F64 := F64)
        ⟨kind, (List.ofFn grids).map .f32, .f32 vals⟩ := by
      by_contra h
      obtain ⟨msg, h'⟩ := (C58_rectilinear kind _ _).2 h
      rw [hm] at h'; cases h'
    have hm' := (C58_rectilinear kind _ _).1 hv
    rw [hm] at hm'
    cases hm'
    have hn := hv.ndims
    simp only [List.length_map, List.length_ofFn] at hn
    have h8 : N ≤ 8 := by have := hn.2; split at this <;> omega
    have hl : vals.length = ((List.ofFn grids).map List.length).prod := by
      have := hv.vals
      rw [List.map_map] at this
      exact this
    have hfit : ProductFits ((List.ofFn grids).map List.length) := by
      refine productFits_of_pos (fun d hd => ?_) ?_
      · rw [List.mem_map] at hd
        obtain ⟨g, hg, rfl⟩ := hd
        rw [List.mem_ofFn] at hg
        obtain ⟨k, rfl⟩ := hg
        exact h1 k
      · rw [← hl]
        rw [isSlice_iff] at hs
        simp only [isizeMax, usizeMax] at *
        omega
    rw [(C59_rectilinear_f32 np fma kind (List.ofFn grids) vals (List.ofFn obs)
      (by simpa using h8) (by simpa using h8)).1 o,
      kind.runRectilinear_tooFew fma hn.1 hn.2 grids vals hfit hl hfew]
    rfl

/-- C61, regular grids of float32: the bounds check of the classes returns one flag per axis, set
exactly when some observation on that axis is outside the grid by `atol` or more. -/
theorem C61_regular_f32 (np : Numpy F32 F64 X) (kind : ClassKind) (h8 : N ≤ 8) (dims : Fin N → Nat)
    (starts steps : Fin N → F32) (vals : List F32) (hu : ∀ k, dims k ≤ usizeMax)
    (hd : ∀ k, 1 ≤ dims k) (last : Fin N → F32)
    (hlast : ∀ k, ofUsize (dims k - 1) = some (last k)) (obs : Fin N → List F32) (atol : F64) :
    ∃ flags : Fin N → Bool,
      RegularObj.checkBounds np (F32 := F32) (F64 := F64)
        ⟨kind, (List.ofFn dims).map fun d : Nat => (d : Int), .f32 (List.ofFn starts),
          .f32 (List.ofFn steps), .f32 vals⟩ ((List.ofFn obs).map .f32) atol =
        .ok (List.ofFn flags) ∧
      ∀ k, flags k = true ↔ ∃ x ∈ obs k,
        ((x -. fmin (starts k) (starts k +. steps k *. last k)) <=. (-. (np.f32of64 atol))) = true ∨
        ((np.f32of64 atol) <=. (x -. fmax (starts k) (starts k +. steps k *. last k))) = true := by
  obtain ⟨flags, h1, h2⟩ := C38_flags dims starts steps obs (np.f32of64 atol)
    (List.replicate N false) (by simp) hd last hlast
  refine ⟨flags, ?_, h2⟩
  have hu8 : unpackOk (List.ofFn obs) = true := by unfold unpackOk; simpa using h8
  unfold RegularObj.checkBounds
  simp only [ok_bind', pyEach_pyUsize
    (show ∀ d ∈ List.ofFn dims, d ≤ usizeMax by simpa [List.forall_mem_ofFn_iff] using hu),
    Arr.asF32, pyEach_ok (f := NpArray.asF32) (g := NpArray.f32) (fun _ => rfl), hu8, Bool.not_true,
    Bool.false_eq_true, if_false, List.length_map, List.length_ofFn, h1]
  rfl

/-- C61, rectilinear grids of float32. -/
theorem C61_rectilinear_f32 (np : Numpy F32 F64 X) (kind : ClassKind) (h8 : N ≤ 8)
    (grids : Fin N → List F32) (vals : List F32) (hg : ∀ k, grids k ≠ [])
    (obs : Fin N → List F32) (atol : F64) :
    ∃ flags : Fin N → Bool,
      RectilinearObj.checkBounds np (F32 := F32) (F64 := F64)
        ⟨kind, (List.ofFn grids).map .f32, .f32 vals⟩ ((List.ofFn obs).map .f32) atol =
        .ok (List.ofFn flags) ∧
      ∀ k, flags k = true ↔ ∃ x ∈ obs k,
        ((x -. (grids k).head (hg k)) <=. (-. (np.f32of64 atol))) = true ∨
        ((np.f32of64 atol) <=. (x -. (grids k).getLast (hg k))) = true := by
  obtain ⟨flags, h1, h2⟩ := C39_flags grids obs (np.f32of64 atol) (List.replicate N false) (by simp) hg
  refine ⟨flags, ?_, h2⟩
  have hu8 : unpackOk (List.ofFn obs) = true := by unfold unpackOk; simpa using h8
  have hg8 : unpackOk (List.ofFn grids) = true := by unfold unpackOk; simpa using h8
  unfold RectilinearObj.checkBounds
  simp only [ok_bind', pyEach_ok (f := Arr.asF32) (g := Arr.f32) (fun _ => rfl),
    pyEach_ok (f := NpArray.asF32) (g := NpArray.f32) (fun _ => rfl), hu8, hg8, Bool.and_self,
    Bool.not_true, Bool.false_eq_true, if_false, List.length_map, List.length_ofFn, h1]
  rfl

/-! #### C59: wrong element types -/

theorem asF64_cases (a : NpArray F32 F64 X) :
    (a.dtype = .float64 ∧ ∃ d, a.asF64 = .ok d) ∨
      (a.dtype ≠ .float64 ∧ a.asF64 = .error .typeError) := by
  cases a
  · exact .inr ⟨by simp [NpArray.dtype], rfl⟩
  · exact .inl ⟨rfl, _, rfl⟩
  · exact .inr ⟨by simp [NpArray.dtype], rfl⟩

theorem asF32_cases (a : NpArray F32 F64 X) :
    (a.dtype = .float32 ∧ ∃ d, a.asF32 = .ok d) ∨
      (a.dtype ≠ .float32 ∧ a.asF32 = .error .typeError) := by
  cases a
  · exact .inl ⟨rfl, _, rfl⟩
  · exact .inr ⟨by simp [NpArray.dtype], rfl⟩
  · exact .inr ⟨by simp [NpArray.dtype], rfl⟩

theorem Arr.asF64_cases (a : Arr F32 F64) :
    (a.dtype = .float64 ∧ ∃ d, a.asF64 = .ok d) ∨
      (a.dtype ≠ .float64 ∧ a.asF64 = .error .typeError) := by
  cases a
  · exact .inr ⟨by simp [Arr.dtype], rfl⟩
  · exact .inl ⟨rfl, _, rfl⟩

theorem Arr.asF32_cases (a : Arr F32 F64) :
    (a.dtype = .float32 ∧ ∃ d, a.asF32 = .ok d) ∨
      (a.dtype ≠ .float32 ∧ a.asF32 = .error .typeError) := by
  cases a
  · exact .inl ⟨rfl, _, rfl⟩
  · exact .inr ⟨by simp [Arr.dtype], rfl⟩

/-- Extraction of a list of arrays: all of the wanted type, or a `TypeError`. -/
theorem pyEach_dtype {α β : Type} {f : α → Except PyExc β} {ty : α → Dtype} {t : Dtype}
    (h : ∀ a, (ty a = t ∧ ∃ d, f a = .ok d) ∨ (ty a ≠ t ∧ f a = .error .typeError)) (l : List α) :
    ((∀ a ∈ l, ty a = t) ∧ ∃ d, pyEach f l = .ok d) ∨
      ((∃ a ∈ l, ty a ≠ t) ∧ pyEach f l = .error .typeError) := by
  have hc : ∀ a ∈ l, (∃ b, f a = .ok b) ∨ f a = .error .typeError := by
    intro a _
    rcases h a with ⟨_, h⟩ | ⟨_, h⟩
    · exact .inl h
    · exact .inr h
  by_cases hex : ∃ a ∈ l, ty a ≠ t
  · refine .inr ⟨hex, pyEach_error hc ?_⟩
    obtain ⟨a, ha, hne⟩ := hex
    rcases h a with ⟨h1, _⟩ | ⟨_, h2⟩
    · exact absurd h1 hne
    · exact ⟨a, ha, h2⟩
  · push Not at hex
    refine .inl ⟨hex, ?_⟩
    rcases pyEach_cases hc with h1 | h1
    · exact h1
    · exfalso
      clear hc
      induction l with
      | nil => cases h1
      | cons a l ih =>
        rcases h a with ⟨_, d, hd⟩ | ⟨hne, _⟩
        · rw [pyEach, hd] at h1
          refine ih (fun a ha => hex a (by simp [ha])) ?_
          cases hl : pyEach f l with
          | ok d' => rw [hl] at h1; cases h1
          | error e => rw [hl] at h1; exact h1
        · exact hne (hex a (by simp))

/-- C59: arrays of another element type than the stored values are rejected with a `TypeError`
when a regular-grid object is evaluated: observations, output, and also `starts` and `steps` (which
a class may have accepted). -/
theorem C59_type_error_regular (np : Numpy F32 F64 X) (fma : Bool) (m : RegularObj F32 F64)
    (hd : ∀ d ∈ m.dims, 0 ≤ d ∧ d ≤ (usizeMax : Int)) (obs : List (NpArray F32 F64 X))
    (out : NpArray F32 F64 X)
    (h : m.starts.dtype ≠ m.vals.dtype ∨ m.steps.dtype ≠ m.vals.dtype ∨
      (∃ a ∈ obs, a.dtype ≠ m.vals.dtype) ∨ out.dtype ≠ m.vals.dtype) :
    m.eval np fma obs (some out) = .error .typeError := by
  obtain ⟨ds, hds⟩ : ∃ ds, pyEach pyUsize m.dims = .ok ds := by
    rcases pyEach_cases (fun z (_ : z ∈ m.dims) => pyUsize_cases z) with h | h
    · exact h
    · exfalso
      obtain ⟨ds, e⟩ : ∃ ds : List Nat, m.dims = ds.map fun d : Nat => (d : Int) :=
        ⟨m.dims.map Int.toNat, by
          rw [List.map_map]
          symm
          rw [List.map_congr_left (g := id), List.map_id]
          intro a ha
          have := (hd a ha).1
          simp [this]⟩
      rw [e, pyEach_pyUsize] at h
      · cases h
      · intro d hd'
        have := (hd d (by rw [e]; exact List.mem_map.2 ⟨d, hd', rfl⟩)).2
        omega
  unfold RegularObj.eval RegularObj.evalUnchecked
  simp only [npOut, ok_bind', hds]
  cases hv : m.vals with
  | f64 v =>
    rw [hv] at h
    simp only [Arr.dtype] at h
    simp only
    rcases m.starts.asF64_cases with ⟨h1, d1, e1⟩ | ⟨h1, e1⟩ <;> rw [e1]
    · rw [ok_bind']
      rcases m.steps.asF64_cases with ⟨h2, d2, e2⟩ | ⟨h2, e2⟩ <;> rw [e2]
      · rw [ok_bind']
        rcases pyEach_dtype (ty := NpArray.dtype) asF64_cases obs with ⟨h3, d3, e3⟩ | ⟨h3, e3⟩ <;>
          rw [e3]
        · rw [ok_bind']
          rcases asF64_cases out with ⟨h4, d4, e4⟩ | ⟨h4, e4⟩ <;> rw [e4]
          · exfalso
            rcases h with h | h | ⟨a, ha, h⟩ | h
            · exact h h1
            · exact h h2
            · exact h (h3 a ha)
            · exact h h4
          · rfl
        · rfl
      · rfl
    · rfl
  | f32 v =>
    rw [hv] at h
    simp only [Arr.dtype] at h
    simp only
    rcases m.starts.asF32_cases with ⟨h1, d1, e1⟩ | ⟨h1, e1⟩ <;> rw [e1]
    · rw [ok_bind']
      rcases m.steps.asF32_cases with ⟨h2, d2, e2⟩ | ⟨h2, e2⟩ <;> rw [e2]
      · rw [ok_bind']
        rcases pyEach_dtype (ty := NpArray.dtype) asF32_cases obs with ⟨h3, d3, e3⟩ | ⟨h3, e3⟩ <;>
          rw [e3]
        · rw [ok_bind']
          rcases asF32_cases out with ⟨h4, d4, e4⟩ | ⟨h4, e4⟩ <;> rw [e4]
          · exfalso
            rcases h with h | h | ⟨a, ha, h⟩ | h
            · exact h h1
            · exact h h2
            · exact h (h3 a ha)
            · exact h h4
          · rfl
        · rfl
      · rfl
    · rfl

/-- C59, rectilinear grids. -/
theorem C59_type_error_rectilinear (np : Numpy F32 F64 X) (fma : Bool) (m : RectilinearObj F32 F64)
    (obs : List (NpArray F32 F64 X)) (out : NpArray F32 F64 X)
    (h : (∃ g ∈ m.grids, g.dtype ≠ m.vals.dtype) ∨
      (∃ a ∈ obs, a.dtype ≠ m.vals.dtype) ∨ out.dtype ≠ m.vals.dtype) :
    m.eval np fma obs (some out) = .error .typeError := by
  unfold RectilinearObj.eval RectilinearObj.evalUnchecked
  simp only [npOut, ok_bind']
  cases hv : m.vals with
  | f64 v =>
    rw [hv] at h
    simp only [Arr.dtype] at h
    simp only
    rcases pyEach_dtype (ty := Arr.dtype) Arr.asF64_cases m.grids with ⟨h1, d1, e1⟩ | ⟨h1, e1⟩ <;>
      rw [e1]
    · rw [ok_bind']
      rcases pyEach_dtype (ty := NpArray.dtype) asF64_cases obs with ⟨h3, d3, e3⟩ | ⟨h3, e3⟩ <;>
        rw [e3]
      · rw [ok_bind']
        rcases asF64_cases out with ⟨h4, d4, e4⟩ | ⟨h4, e4⟩ <;> rw [e4]
        · exfalso
          rcases h with ⟨a, ha, h⟩ | ⟨a, ha, h⟩ | h
          · exact h (h1 a ha)
          · exact h (h3 a ha)
          · exact h h4
        · rfl
      · rfl
    · rfl
  | f32 v =>
    rw [hv] at h
    simp only [Arr.dtype] at h
    simp only
    rcases pyEach_dtype (ty := Arr.dtype) Arr.asF32_cases m.grids with ⟨h1, d1, e1⟩ | ⟨h1, e1⟩ <;>
      rw [e1]
    · rw [ok_bind']
      rcases pyEach_dtype (ty := NpArray.dtype) asF32_cases obs with ⟨h3, d3, e3⟩ | ⟨h3, e3⟩ <;>
        rw [e3]
      · rw [ok_bind']
        rcases asF32_cases out with ⟨h4, d4, e4⟩ | ⟨h4, e4⟩ <;> rw [e4]
        · exfalso
          rcases h with ⟨a, ha, h⟩ | ⟨a, ha, h⟩ | h
          · exact h (h1 a ha)
          · exact h (h3 a ha)
          · exact h h4
        · rfl
      · rfl
    · rfl

/-- C59: without an output array at least one observation array is needed. -/
theorem C59_no_obs (np : Numpy F32 F64 X) (fma : Bool) (m : RegularObj F32 F64)
    (m' : RectilinearObj F32 F64) :
    m.eval np fma [] none = .error .indexError ∧ m'.eval np fma [] none = .error .indexError :=
  ⟨rfl, rfl⟩

/-- C59: a negative or too large dimension makes every evaluation fail with an
`OverflowError`. -/
theorem C59_overflow (np : Numpy F32 F64 X) (fma : Bool) (m : RegularObj F32 F64)
    (obs : List (NpArray F32 F64 X)) (out : NpArray F32 F64 X)
    (h : ∃ d ∈ m.dims, d < 0 ∨ (usizeMax : Int) < d) :
    m.eval np fma obs (some out) = .error .overflowError := by
  have hds : pyEach pyUsize m.dims = .error .overflowError := by
    refine pyEach_error (fun z _ => pyUsize_cases z) ?_
    obtain ⟨d, hd, h⟩ := h
    refine ⟨d, hd, ?_⟩
    unfold pyUsize
    rw [if_neg (by omega)]
  unfold RegularObj.eval RegularObj.evalUnchecked
  simp only [npOut, ok_bind', hds]
  cases m.vals <;> rfl

/-! #### C62: serialization -/

theorem Arr.load_dump {np : Numpy F32 F64 X} {js : Json F64} (hf : Faithful np js)
    (a : Arr F32 F64) : (a.dump np js).load np js = .ok a := by
  cases a with
  | f32 d =>
    simp only [Arr.dump, ArrJson.load, hf.json]
    congr 2
    rw [List.map_map]
    conv_rhs => rw [← List.map_id d]
    refine List.map_congr_left fun x _ => ?_
    simp [hf.cast]
  | f64 d => simp only [Arr.dump, ArrJson.load, hf.json]

/-- C62: loading a dumped interpolator gives the same interpolator. -/
theorem C62_regular (np : Numpy F32 F64 X) (js : Json F64) (hf : Faithful np js) (kind : ClassKind)
    (dims : List Int) (starts steps vals : Arr F32 F64) (m : RegularObj F32 F64)
    (hm : RegularObj.construct kind dims starts steps vals = .ok m) :
    (m.dump np js).load np js = .ok m := by
  have hm2 : m = ⟨kind, dims, starts, steps, vals⟩ := by
    unfold RegularObj.construct at hm
    cases hv : RegularObj.validate ⟨kind, dims, starts, steps, vals⟩ with
    | ok u => simp only [hv] at hm; cases hm; rfl
    | error e => simp only [hv] at hm; cases hm
  subst hm2
  unfold RegularJson.load RegularObj.dump
  simp only [Arr.load_dump hf, ok_bind', hm]

/-- C62, rectilinear grids. -/
theorem C62_rectilinear (np : Numpy F32 F64 X) (js : Json F64) (hf : Faithful np js)
    (kind : ClassKind) (grids : List (Arr F32 F64)) (vals : Arr F32 F64) (m : RectilinearObj F32 F64)
    (hm : RectilinearObj.construct kind grids vals = .ok m) :
    (m.dump np js).load np js = .ok m := by
  have hm2 : m = ⟨kind, grids, vals⟩ := by
    unfold RectilinearObj.construct at hm
    cases hv : RectilinearObj.validate ⟨kind, grids, vals⟩ with
    | ok u => simp only [hv] at hm; cases hm; rfl
    | error e => simp only [hv] at hm; cases hm
  subst hm2
  unfold RectilinearJson.load RectilinearObj.dump
  simp only [Arr.load_dump hf, pyEach_ok (Arr.load_dump hf), ok_bind', hm]

end

/-! #### Concrete cases -/

section
attribute [local instance] ratOps

/-- For the examples both float types are the rationals, other arrays hold integers. -/
def exNumpy : Numpy ℚ ℚ Int where
  f32of64 x := x
  f64of32 x := x
  f32ofX x := x
  f64ofX x := x
  zeroX := 0

/-- An accepted object, built by `new` from float64 values and integer axes. -/
example : RegularObj.new exNumpy .multilinear [2, 2] (.other [0, 0]) (.other [1, 1])
    (.f64 [1, 2, 3, 4]) =
    .ok ⟨.multilinear, [2, 2], .f64 [0, 0], .f64 [1, 1], .f64 [1, 2, 3, 4]⟩ := by decide +kernel

/-- Integer values become float32. -/
example : RegularObj.new exNumpy .nearest [2, 2] (.f64 [0, 0]) (.f64 [1, 1])
    (.other [1, 2, 3, 4]) =
    .ok ⟨.nearest, [2, 2], .f32 [0, 0], .f32 [1, 1], .f32 [1, 2, 3, 4]⟩ := by decide +kernel

/-- Evaluation. -/
example : RegularObj.eval exNumpy true ⟨.multilinear, [2, 2], .f64 [0, 0], .f64 [1, 1],
    .f64 [1, 2, 3, 4]⟩ [.f64 [1/2, 1], .f64 [1/2, 2]] none = .ok (.f64 [5/2, 5]) := by
  decide +kernel

example : RectilinearObj.eval exNumpy true ⟨.multicubic true, [.f32 [0, 1, 3, 4]],
    .f32 [1, 2, 4, 5]⟩ [.f32 [1/2, 6]] none = .ok (.f32 [3/2, 7]) := by
  decide +kernel

/-- Observations of another element type. -/
example : RegularObj.eval exNumpy true ⟨.multilinear, [2, 2], .f64 [0, 0], .f64 [1, 1],
    .f64 [1, 2, 3, 4]⟩ [.f64 [1/2, 1], .f32 [1/2, 2]] none = .error .typeError := by
  decide +kernel

/-- `MultilinearRegular` accepts `starts` of another element type, `NearestRegular` does not; the
former then cannot be evaluated. -/
example : RegularObj.construct (F32 := ℚ) (F64 := ℚ) .multilinear [2] (.f32 [0]) (.f64 [1])
      (.f64 [1, 2]) = .ok ⟨.multilinear, [2], .f32 [0], .f64 [1], .f64 [1, 2]⟩ ∧
    RegularObj.construct (F32 := ℚ) (F64 := ℚ) .nearest [2] (.f32 [0]) (.f64 [1]) (.f64 [1, 2]) =
      .error (.validationError
        "All grid inputs must be of the same data type (np.float32 or np.float64)") ∧
    RegularObj.eval exNumpy true ⟨.multilinear, [2], .f32 [0], .f64 [1], .f64 [1, 2]⟩
      [.f64 [1/2]] none = .error .typeError := by decide +kernel

/-- Accepted with too few nodes: cannot be evaluated. -/
example : RegularObj.construct (F32 := ℚ) (F64 := ℚ) (.multicubic true) [3] (.f64 [0]) (.f64 [1])
      (.f64 [1, 2, 3]) = .ok ⟨.multicubic true, [3], .f64 [0], .f64 [1], .f64 [1, 2, 3]⟩ ∧
    RegularObj.eval exNumpy true ⟨.multicubic true, [3], .f64 [0], .f64 [1], .f64 [1, 2, 3]⟩
      [.f64 [1/2]] none =
      .error (.assertionError "All grids must have at least four entries") := by decide +kernel

/-- Negative dimensions with the right product are accepted and cannot be evaluated. -/
example : RegularObj.construct (F32 := ℚ) (F64 := ℚ) .nearest [-1, -2] (.f64 [0, 0]) (.f64 [1, 1])
      (.f64 [1, 2]) = .ok ⟨.nearest, [-1, -2], .f64 [0, 0], .f64 [1, 1], .f64 [1, 2]⟩ ∧
    RegularObj.eval exNumpy true ⟨.nearest, [-1, -2], .f64 [0, 0], .f64 [1, 1], .f64 [1, 2]⟩
      [.f64 [1/2], .f64 [0]] none = .error .overflowError := by decide +kernel

/-- Bounds check in two dimensions (which fails through `interpn`, C50). -/
example : RectilinearObj.checkBounds exNumpy ⟨.nearest, [.f64 [0, 1], .f64 [0, 2]],
    .f64 [1, 2, 3, 4]⟩ [.f64 [1/2, 1/2], .f64 [1, 3]] (1/10) = .ok [false, true] := by
  decide +kernel

example : SubDetectsOrder ℚ := fun a b => by
  show decide ((0 : ℚ) < b - a) = decide (a < b)
  simp

example : Faithful (F32 := ℚ) exNumpy
    ⟨fun l => String.ofList (List.replicate (Encodable.encode l) 'x'),
      fun s => Encodable.decode s.length⟩ :=
  ⟨fun l => by simp, fun _ => rfl⟩

end

end Interpn
