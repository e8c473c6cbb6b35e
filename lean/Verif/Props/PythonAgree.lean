import Verif.Props.PythonShapes

/-! C112: the Python function `interpn` and the Python classes return the same arrays and raise the
same exceptions. The statements ending in `_f64` and `_f32` are the same for the two element
types. -/

set_option autoImplicit false

namespace Interpn
open FloatOps

variable {F32 F64 X : Type} [FloatOps F32] [FloatOps F64]

/-- The class for a value of the argument `method` of `interpn`, with the flag
`linearize_extrapolation` (which only `"cubic"` uses). -/
def PyMethod.classKind : PyMethod → Bool → ClassKind
  | .linear, _ => .multilinear
  | .nearest, _ => .nearest
  | .cubic, lin => .multicubic lin

private theorem runRegular_classKind {T : Type} [FloatOps T] (m : PyMethod) (lin fma : Bool)
    (dims : List Nat) (starts steps vals : List T) (obs : List (List T)) (out : List T) :
    (m.classKind lin).runRegular fma dims starts steps vals obs out =
      m.runRegular fma dims starts steps vals lin obs out := by
  cases m <;> rfl

private theorem runRectilinear_classKind {T : Type} [FloatOps T] (m : PyMethod) (lin fma : Bool)
    (grids : List (List T)) (vals : List T) (obs : List (List T)) (out : List T) :
    (m.classKind lin).runRectilinear fma grids vals obs out =
      m.runRectilinear fma grids vals lin obs out := by
  cases m <;> rfl

private theorem pyOutcome_pyResult {T α β : Type} [FloatOps T] (c : α) (wrap : List T → β)
    (r : Res Unit × List T) :
    pyOutcome wrap r = (pyResult c r).map fun q => wrap q.2 := by
  unfold pyOutcome pyResult
  cases r.1 <;> rfl

/-- C112, float64, regular grids: if `interpn` treats the grids as regular, it returns what the
object of the class made from sizes, first entries and first spacings of the grids returns, or
raises the same exception. -/
theorem C112_regular_f64 (np : Numpy F32 F64 X) (fma : Bool) (m : PyMethod)
    (obs grids : List (List F64)) (vals : List F64) (lin assume : Bool) (atol : F64)
    (h2 : ∀ g ∈ grids, 2 ≤ g.length) (hd : ∀ g ∈ grids, g.length ≤ usizeMax)
    (hreg : assume = true ∨ ∀ g ∈ grids, UniformSpacing g) (c : RegularObj F32 F64)
    (hc : RegularObj.new np (m.classKind lin) (grids.map fun g => (g.length : Int))
      (.f64 (grids.map fun g => g.getD 0 zero))
      (.f64 (grids.map fun g => g.getD 1 zero -. g.getD 0 zero)) (.f64 vals) = .ok c) :
    c.eval np fma (obs.map .f64) none =
      (pyInterpn fma .float64 obs grids vals m.name none lin assume false atol).map
        fun r => .f64 r.2 := by
  have hc' : c = ⟨m.classKind lin, (grids.map List.length).map fun d : Nat => (d : Int),
      .f64 (grids.map fun g => g.getD 0 zero),
      .f64 (grids.map fun g => g.getD 1 zero -. g.getD 0 zero), .f64 vals⟩ := by
    rw [(C58_new_f64 np _ _ _ _ [] vals).1] at hc
    by_cases hv : RegularObj.Valid (F32 := F32) ⟨m.classKind lin, grids.map fun g => (g.length : Int),
        .f64 (grids.map fun g => g.getD 0 zero),
        .f64 (grids.map fun g => g.getD 1 zero -. g.getD 0 zero), .f64 vals⟩
    · have := hc.symm.trans ((C58_regular _ _ _ _ _).1 hv)
      rw [List.map_map]
      exact Except.ok.inj this
    · obtain ⟨msg, h⟩ := (C58_regular _ _ _ _ _).2 hv
      exact nomatch hc.symm.trans h
  have hd' : ∀ d ∈ grids.map List.length, d ≤ usizeMax := by
    intro d hdm
    obtain ⟨g, hg, rfl⟩ := List.mem_map.1 hdm
    exact hd g hg
  subst hc'
  match obs with
  | [] => rfl
  | o :: rest =>
    by_cases h8 : (o :: rest).length ≤ 8
    · rw [(C59_regular_f64 np fma (m.classKind lin) (grids.map List.length) _ _ vals (o :: rest) hd'
          h8).2.1 o rest rfl,
        C49_regular fma .float64 (by decide) m (o :: rest) grids vals none
          (List.replicate o.length zero) lin assume atol rfl h8 h2 hreg,
        runRegular_classKind, pyOutcome_pyResult]
    · rw [C49_too_many fma .float64 (by decide) m (o :: rest) grids vals none
        (List.replicate o.length zero) lin assume false atol rfl (not_le.1 h8) h2]
      exact (C59_too_many_regular_f64 np fma (m.classKind lin) (grids.map List.length) _ _ vals
        (o :: rest) hd' (not_le.1 h8) none atol).1

/-- C112, float64, rectilinear grids: if `interpn` does not treat the grids as regular, it returns
what the object of the class made from the grids returns, or raises the same exception. -/
theorem C112_rectilinear_f64 (np : Numpy F32 F64 X) (fma : Bool) (m : PyMethod)
    (obs grids : List (List F64)) (vals : List F64) (lin : Bool) (atol : F64)
    (h2 : ∀ g ∈ grids, 2 ≤ g.length) (hreg : ∃ g ∈ grids, ¬ UniformSpacing g)
    (c : RectilinearObj F32 F64)
    (hc : RectilinearObj.new np (m.classKind lin) (grids.map .f64) (.f64 vals) = .ok c) :
    c.eval np fma (obs.map .f64) none =
      (pyInterpn fma .float64 obs grids vals m.name none lin false false atol).map
        fun r => .f64 r.2 := by
  have hc' : c = ⟨m.classKind lin, grids.map .f64, .f64 vals⟩ := by
    rw [(C58_new_f64 np _ [] (.f64 []) (.f64 []) _ vals).2, List.map_map] at hc
    by_cases hv : RectilinearObj.Valid (F32 := F32) ⟨m.classKind lin, grids.map .f64, .f64 vals⟩
    · exact Except.ok.inj (hc.symm.trans ((C58_rectilinear _ _ _).1 hv))
    · obtain ⟨msg, h⟩ := (C58_rectilinear _ _ _).2 hv
      exact nomatch hc.symm.trans h
  subst hc'
  match obs with
  | [] => rfl
  | o :: rest =>
    by_cases h8' : 8 < grids.length
    · rw [C49_too_many_grids fma .float64 (by decide) m (o :: rest) grids vals none
        (List.replicate o.length zero) lin false atol rfl h8' h2 hreg]
      exact (C59_too_many_rectilinear_f64 np fma (m.classKind lin) grids vals (o :: rest)
        (by simp) (.inl h8') none atol).1
    by_cases h8 : (o :: rest).length ≤ 8
    · rw [(C59_rectilinear_f64 np fma (m.classKind lin) grids vals (o :: rest) h8
          (not_lt.1 h8')).2.1 o rest rfl,
        C49_rectilinear fma .float64 (by decide) m (o :: rest) grids vals none
          (List.replicate o.length zero) lin false atol rfl h8 (not_lt.1 h8') h2
          (by
            rintro (h | h)
            · cases h
            · obtain ⟨g, hg, hn⟩ := hreg
              exact hn (h g hg)),
        runRectilinear_classKind, pyOutcome_pyResult]
    · rw [C49_too_many fma .float64 (by decide) m (o :: rest) grids vals none
        (List.replicate o.length zero) lin false false atol rfl (not_le.1 h8) h2]
      exact (C59_too_many_rectilinear_f64 np fma (m.classKind lin) grids vals
        (o :: rest) (by simp) (.inr (not_le.1 h8)) none atol).1

/-- C112, float32, regular grids: if `interpn` treats the grids as regular, it returns what the
object of the class made from sizes, first entries and first spacings of the grids returns, or
raises the same exception. -/
theorem C112_regular_f32 (np : Numpy F32 F64 X) (fma : Bool) (m : PyMethod)
    (obs grids : List (List F32)) (vals : List F32) (lin assume : Bool) (atol : F32)
    (h2 : ∀ g ∈ grids, 2 ≤ g.length) (hd : ∀ g ∈ grids, g.length ≤ usizeMax)
    (hreg : assume = true ∨ ∀ g ∈ grids, UniformSpacing g) (c : RegularObj F32 F64)
    (hc : RegularObj.new np (m.classKind lin) (grids.map fun g => (g.length : Int))
      (.f32 (grids.map fun g => g.getD 0 zero))
      (.f32 (grids.map fun g => g.getD 1 zero -. g.getD 0 zero)) (.f32 vals) = .ok c) :
    c.eval np fma (obs.map .f32) none =
      (pyInterpn fma .float32 obs grids vals m.name none lin assume false atol).map
        fun r => .f32 r.2 := by
  have hc' : c = ⟨m.classKind lin, (grids.map List.length).map fun d : Nat => (d : Int),
      .f32 (grids.map fun g => g.getD 0 zero),
      .f32 (grids.map fun g => g.getD 1 zero -. g.getD 0 zero), .f32 vals⟩ := by
    rw [(C58_new_f32 np _ _ _ _ [] (.f32 vals) (by simp)).1] at hc
    by_cases hv : RegularObj.Valid (F64 := F64) ⟨m.classKind lin, grids.map fun g => (g.length : Int),
        .f32 (grids.map fun g => g.getD 0 zero),
        .f32 (grids.map fun g => g.getD 1 zero -. g.getD 0 zero), .f32 vals⟩
    · have := hc.symm.trans ((C58_regular _ _ _ _ _).1 hv)
      rw [List.map_map]
      exact Except.ok.inj this
    · obtain ⟨msg, h⟩ := (C58_regular _ _ _ _ _).2 hv
      exact nomatch hc.symm.trans h
  have hd' : ∀ d ∈ grids.map List.length, d ≤ usizeMax := by
    intro d hdm
    obtain ⟨g, hg, rfl⟩ := List.mem_map.1 hdm
    exact hd g hg
  subst hc'
  match obs with
  | [] => rfl
  | o :: rest =>
    by_cases h8 : (o :: rest).length ≤ 8
    · rw [(C59_regular_f32 np fma (m.classKind lin) (grids.map List.length) _ _ vals (o :: rest) hd'
          h8).2.1 o rest rfl,
        C49_regular fma .float32 (by decide) m (o :: rest) grids vals none
          (List.replicate o.length zero) lin assume atol rfl h8 h2 hreg,
        runRegular_classKind, pyOutcome_pyResult]
    · rw [C49_too_many fma .float32 (by decide) m (o :: rest) grids vals none
        (List.replicate o.length zero) lin assume false atol rfl (not_le.1 h8) h2]
      exact (C59_too_many_regular_f32 np fma (m.classKind lin) (grids.map List.length) _ _ vals
        (o :: rest) hd' (not_le.1 h8) none (zero : F64)).1

/-- C112, float32, rectilinear grids: if `interpn` does not treat the grids as regular, it returns
what the object of the class made from the grids returns, or raises the same exception. -/
theorem C112_rectilinear_f32 (np : Numpy F32 F64 X) (fma : Bool) (m : PyMethod)
    (obs grids : List (List F32)) (vals : List F32) (lin : Bool) (atol : F32)
    (h2 : ∀ g ∈ grids, 2 ≤ g.length) (hreg : ∃ g ∈ grids, ¬ UniformSpacing g)
    (c : RectilinearObj F32 F64)
    (hc : RectilinearObj.new np (m.classKind lin) (grids.map .f32) (.f32 vals) = .ok c) :
    c.eval np fma (obs.map .f32) none =
      (pyInterpn fma .float32 obs grids vals m.name none lin false false atol).map
        fun r => .f32 r.2 := by
  have hc' : c = ⟨m.classKind lin, grids.map .f32, .f32 vals⟩ := by
    rw [(C58_new_f32 np _ [] (.f32 []) (.f32 []) _ (.f32 vals) (by simp)).2, List.map_map] at hc
    by_cases hv : RectilinearObj.Valid (F64 := F64) ⟨m.classKind lin, grids.map .f32, .f32 vals⟩
    · exact Except.ok.inj (hc.symm.trans ((C58_rectilinear _ _ _).1 hv))
    · obtain ⟨msg, h⟩ := (C58_rectilinear _ _ _).2 hv
      exact nomatch hc.symm.trans h
  subst hc'
  match obs with
  | [] => rfl
  | o :: rest =>
    by_cases h8' : 8 < grids.length
    · rw [C49_too_many_grids fma .float32 (by decide) m (o :: rest) grids vals none
        (List.replicate o.length zero) lin false atol rfl h8' h2 hreg]
      exact (C59_too_many_rectilinear_f32 np fma (m.classKind lin) grids vals (o :: rest)
        (by simp) (.inl h8') none (zero : F64)).1
    by_cases h8 : (o :: rest).length ≤ 8
    · rw [(C59_rectilinear_f32 np fma (m.classKind lin) grids vals (o :: rest) h8
          (not_lt.1 h8')).2.1 o rest rfl,
        C49_rectilinear fma .float32 (by decide) m (o :: rest) grids vals none
          (List.replicate o.length zero) lin false atol rfl h8 (not_lt.1 h8') h2
          (by
            rintro (h | h)
            · cases h
            · obtain ⟨g, hg, hn⟩ := hreg
              exact hn (h g hg)),
        runRectilinear_classKind, pyOutcome_pyResult]
    · rw [C49_too_many fma .float32 (by decide) m (o :: rest) grids vals none
        (List.replicate o.length zero) lin false false atol rfl (not_le.1 h8) h2]
      exact (C59_too_many_rectilinear_f32 np fma (m.classKind lin) grids vals
        (o :: rest) (by simp) (.inr (not_le.1 h8)) none (zero : F64)).1

section Examples
attribute [local instance] ratOps

/-- `MultilinearRegular.new` on a uniform 3 × 2 grid, `MulticubicRectilinear.new` on a non-uniform
axis. -/
example :
    RegularObj.new exNumpy (PyMethod.linear.classKind true)
      ([[0, 1, 2], [0, 1]].map fun g : List ℚ => (g.length : Int)) (.f64 [0, 0]) (.f64 [1, 1])
      (.f64 [0, 0, 1, 2, 3, 5]) =
        .ok ⟨.multilinear, [3, 2], .f64 [0, 0], .f64 [1, 1], .f64 [0, 0, 1, 2, 3, 5]⟩ ∧
    RegularObj.eval exNumpy false ⟨.multilinear, [3, 2], .f64 [0, 0], .f64 [1, 1],
      .f64 [0, 0, 1, 2, 3, 5]⟩ [.f64 [1/2], .f64 [1/2]] none = .ok (.f64 [3/4]) ∧
    pyInterpn false .float64 [[1/2], [1/2]] [[0, 1, 2], [0, 1]] [0, 0, 1, 2, 3, (5 : ℚ)]
      PyMethod.linear.name none true false false 0 = .ok (⟨"linear", true, .float64⟩, [3/4]) ∧
    RectilinearObj.new exNumpy (PyMethod.cubic.classKind true) [.f32 [0, 1, 3, 4]]
      (.f32 [1, 2, 4, 5]) = .ok ⟨.multicubic true, [.f32 [0, 1, 3, 4]], .f32 [1, 2, 4, 5]⟩ ∧
    RectilinearObj.eval exNumpy true ⟨.multicubic true, [.f32 [0, 1, 3, 4]],
      .f32 [1, 2, 4, 5]⟩ [.f32 [1/2, 6]] none = .ok (.f32 [3/2, 7]) ∧
    pyInterpn true .float32 [[1/2, 6]] [[0, 1, 3, 4]] [1, 2, 4, (5 : ℚ)]
      PyMethod.cubic.name none true false false 0 =
        .ok (⟨"cubic", false, .float32⟩, [3/2, 7]) := by
  decide +kernel

end Examples

end Interpn
