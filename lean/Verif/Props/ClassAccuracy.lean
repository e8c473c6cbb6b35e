import Verif.Props.PythonClasses
import Verif.Props.IeeeAccuracy
import Verif.Props.IeeeCubic
import Verif.Props.IeeeNearest
import Verif.Props.DetectCubic
import Verif.Spec.IeeeNumpy
import Verif.Lemmas.IeeeExamples

/-! C104: the Python classes in IEEE 754 arithmetic, from the arrays passed to the constructor to the
array returned by `eval`. -/

set_option autoImplicit false
set_option exponentiation.threshold 1100

namespace Interpn
open FloatOps Ieee

/-! ### Auxiliary facts -/

section
variable {N : Nat} {f : Format}

private theorem size_le {G : Axes ℚ N} {m : Nat} {vals : List ℚ} (hG : G.Valid m vals) (hm : 1 ≤ m)
    (k : Fin N) : G.size k ≤ usizeMax := by
  have hs : vals.length < 2 ^ 63 := hG.slice
  have hle : G.size k ≤ ∏ j, G.size j :=
    Finset.single_le_prod' (f := G.size) (fun j _ => by have := hG.big j; omega) (Finset.mem_univ k)
  rw [← hG.len] at hle
  simp only [usizeMax]
  omega

private theorem all_positive {steps : Fin N → Ieee f} (hfin : ∀ k, Finite (steps k))
    (hpos : ∀ k, 0 < val (steps k)) : AllPositive (List.ofFn steps) := by
  intro a ha
  rw [List.mem_ofFn] at ha
  obtain ⟨k, rfl⟩ := ha
  have hz := zero_eq (f := f)
  exact (exactCompare f _ _ hz.1 (hfin k)).2 (by rw [hz.2]; exact hpos k)

private theorem increasing_steps {g : List (Ieee f)} (hfin : ∀ a ∈ g, Finite a)
    (hinc : ∀ i, i + 1 < g.length → (g.map val).getD i 0 < (g.map val).getD (i + 1) 0) :
    IncreasingSteps g := by
  intro i hi
  rw [subDetectsOrder f]
  have e : ∀ j (hj : j < g.length), (g.map val).getD j 0 = val g[j] := by
    intro j hj
    rw [List.getD_eq_getElem?_getD, List.getElem?_map, List.getElem?_eq_getElem hj]; rfl
  have := hinc i hi
  rw [e i (by omega), e (i + 1) hi] at this
  exact (exactCompare f _ _ (hfin _ (List.getElem_mem _)) (hfin _ (List.getElem_mem _))).2 this

private theorem kind_min (kind : ClassKind) : 2 ≤ kind.minNodes := by cases kind <;> simp [ClassKind.minNodes]

private theorem rect_in {grids : Fin N → List (Ieee f)} {pt : Fin N → Ieee f}
    (hin : ∀ k, InRange (grids k).length (fun i => ((grids k).map val).getD i 0) (val (pt k))) :
    ∀ k, InRange ((Axes.rectilinear fun k => (grids k).map val).size k)
      ((Axes.rectilinear fun k => (grids k).map val).node k) (val (pt k)) := by
  intro k
  have := hin k
  rw [← List.length_map (f := val)] at this
  exact this

private theorem linear_fits (h1 : 1 ≤ N) : (linearImpl N).Fits N := by
  unfold linearImpl; split
  · exact h1
  · exact ⟨h1, le_rfl⟩

private theorem cubic_fits (h1 : 1 ≤ N) : (cubicImpl N).Fits N := by
  unfold cubicImpl; split
  · exact h1
  · exact ⟨h1, le_rfl⟩

end

section
variable {N : Nat} {X : Type}

private theorem class_regular_f64 (np : Numpy F32 F64 X) (fma : Bool) (kind : ClassKind) (h1 : 1 ≤ N)
    (h8 : N ≤ if kind = .nearest then 6 else 8)
    (dims : Fin N → Nat) (starts steps : Fin N → F64) (vals : List F64)
    (hG : (Axes.regular dims (fun k => val (starts k)) fun k => val (steps k)).Valid kind.minNodes
      (vals.map val)) (hfin : ∀ k, Finite (starts k) ∧ Finite (steps k))
    (starts' steps' : NpArray F32 F64 X) (hst : starts'.values64 np = List.ofFn starts)
    (hsp : steps'.values64 np = List.ofFn steps)
    (obs : Fin N → List F64) (n : Nat) (hobs : ∀ k, (obs k).length = n)
    (P : (Fin N → F64) → F64 → Prop)
    (hP : ∀ pt, (∀ k, pt k ∈ obs k) →
      ∃ r, kind.regularAt fma dims starts steps vals pt = .ok r ∧ P pt r) :
    ∃ m res, RegularObj.new np kind ((List.ofFn dims).map fun d : Nat => (d : Int)) starts' steps'
        (.f64 vals) = .ok m ∧
      m.eval np fma ((List.ofFn obs).map .f64) none = .ok (.f64 res) ∧ res.length = n ∧
      ∀ i pt, PointAt obs i pt → ∃ r, res[i]? = some r ∧ P pt r := by
  have hs : IsSlice vals := by have := hG.slice; unfold IsSlice at *; simpa using this
  have hpos := fun k => hG.step_pos (kind_min kind) k
  have hvalid : RegularObj.Valid (F32 := F32) (F64 := F64)
      ⟨kind, (List.ofFn dims).map fun d : Nat => (d : Int), .f64 (List.ofFn starts),
        .f64 (List.ofFn steps), .f64 vals⟩ := by
    refine ⟨by simpa using ⟨h1, h8⟩, by simp [Arr.size], by simp [Arr.size], ?_,
      all_positive (fun k => (hfin k).2) hpos, rfl, fun _ => rfl⟩
    have := hG.len
    simp only [List.length_map, Axes.size] at this
    simp only [Arr.size]
    rw [this, ← List.prod_ofFn, ← Nat.cast_list_prod]
  have hc := (C58_regular kind ((List.ofFn dims).map fun d : Nat => (d : Int))
    (.f64 (List.ofFn starts)) (.f64 (List.ofFn steps)) (.f64 vals)).1 hvalid
  obtain ⟨interp, hB, -, hev⟩ := C60_regular_f64 np fma kind dims starts steps vals hs
    (fun k => size_le hG (by have := kind_min kind; omega) k) hG.big _ hc
  obtain ⟨res, hr1, hr2, hr3⟩ := batch_complete h1 hB obs (List.replicate n zero)
    (fun k => by rw [hobs k, List.length_replicate]) P hP
  refine ⟨⟨kind, (List.ofFn dims).map fun d : Nat => (d : Int), .f64 (List.ofFn starts),
        .f64 (List.ofFn steps), .f64 vals⟩, res, ?_, ?_, by rw [hr2, List.length_replicate], hr3⟩
  · rw [(C58_new_f64 np kind _ starts' steps' [] vals).1, hst, hsp]
    exact hc
  · rw [hev obs n hobs, hr1]; rfl

private theorem class_rectilinear_f64 (np : Numpy F32 F64 X) (fma : Bool) (kind : ClassKind)
    (h1 : 1 ≤ N) (h8 : N ≤ if kind = .nearest then 6 else 8)
    (grids : Fin N → List F64) (vals : List F64)
    (hG : (Axes.rectilinear fun k => (grids k).map val).Valid kind.minNodes (vals.map val))
    (hfin : ∀ k, ∀ a ∈ grids k, Finite a)
    (grids' : List (NpArray F32 F64 X)) (hgr : grids'.map (fun g => g.values64 np) = List.ofFn grids)
    (obs : Fin N → List F64) (n : Nat) (hobs : ∀ k, (obs k).length = n)
    (P : (Fin N → F64) → F64 → Prop)
    (hP : ∀ pt, (∀ k, pt k ∈ obs k) →
      ∃ r, kind.rectilinearAt fma grids vals pt = .ok r ∧ P pt r) :
    ∃ m res, RectilinearObj.new np kind grids' (.f64 vals) = .ok m ∧
      m.eval np fma ((List.ofFn obs).map .f64) none = .ok (.f64 res) ∧ res.length = n ∧
      ∀ i pt, PointAt obs i pt → ∃ r, res[i]? = some r ∧ P pt r := by
  have hs : IsSlice vals := by have := hG.slice; unfold IsSlice at *; simpa using this
  have hvalid : RectilinearObj.Valid (F32 := F32) (F64 := F64)
      ⟨kind, (List.ofFn grids).map .f64, .f64 vals⟩ := by
    refine ⟨by simpa using ⟨h1, h8⟩, ?_, ?_, ?_⟩
    · have := hG.len
      simp only [List.length_map, Axes.size] at this
      simp only [Arr.size, List.map_map]
      rw [this, ← List.prod_ofFn, List.map_ofFn]
      rfl
    · intro g hg
      rw [List.mem_map] at hg
      obtain ⟨g, hg, rfl⟩ := hg
      rw [List.mem_ofFn] at hg
      obtain ⟨k, rfl⟩ := hg
      exact increasing_steps (hfin k) fun i hi => by
        have := hG.increasing k i (by simpa [Axes.size] using hi)
        simpa [Axes.node] using this
    · intro g hg
      rw [List.mem_map] at hg
      obtain ⟨g, hg, rfl⟩ := hg
      rfl
  have hc := (C58_rectilinear kind ((List.ofFn grids).map .f64) (.f64 vals)).1 hvalid
  obtain ⟨res, hr1, hr2, hr3, -⟩ := C60_rectilinear_f64 np fma (subDetectsOrder _) kind grids vals hs
    (fun k => by simpa [Axes.size] using hG.big k) _ hc obs n hobs
  have hmap : (grids'.map fun g => (Arr.f64 (g.values64 np) : Arr F32 F64)) =
      (List.ofFn grids).map .f64 := by
    rw [← hgr, List.map_map]; rfl
  refine ⟨⟨kind, (List.ofFn grids).map .f64, .f64 vals⟩, res, ?_, hr3, hr1, fun i pt hpt => ?_⟩
  · rw [(C58_new_f64 np kind [] (.f64 []) (.f64 []) grids' vals).2, hmap]
    exact hc
  · have hi : i < res.length := by
      have := hpt ⟨0, h1⟩
      obtain ⟨h2, -⟩ := List.getElem?_eq_some_iff.1 this
      rw [hr1, ← hobs ⟨0, h1⟩]; exact h2
    obtain ⟨r, hp1, hp2⟩ := hP pt fun k => List.mem_of_getElem? (hpt k)
    obtain ⟨pt', h3, h4⟩ := hr2 i res[i] (List.getElem?_eq_getElem hi)
    have e : pt' = pt := funext fun k => by
      have := (h3 k).symm.trans (hpt k)
      simpa using this
    rw [e, hp1] at h4
    have e2 : r = res[i] := (Res.ok.injEq _ _).mp h4
    exact ⟨r, by rw [e2]; exact List.getElem?_eq_getElem hi, hp2⟩

end

section
variable {N : Nat} {X : Type}

private theorem class_regular_f32 (np : Numpy F32 F64 X) (fma : Bool) (kind : ClassKind) (h1 : 1 ≤ N)
    (h8 : N ≤ if kind = .nearest then 6 else 8)
    (dims : Fin N → Nat) (starts steps : Fin N → F32) (vals : List F32)
    (hG : (Axes.regular dims (fun k => val (starts k)) fun k => val (steps k)).Valid kind.minNodes
      (vals.map val)) (hfin : ∀ k, Finite (starts k) ∧ Finite (steps k))
    (starts' steps' : NpArray F32 F64 X) (hst : starts'.values32 np = List.ofFn starts)
    (hsp : steps'.values32 np = List.ofFn steps) (vals' : NpArray F32 F64 X) (hv64 : ∀ d, vals' ≠ .f64 d)
    (hv : vals'.values32 np = vals)
    (obs : Fin N → List F32) (n : Nat) (hobs : ∀ k, (obs k).length = n)
    (P : (Fin N → F32) → F32 → Prop)
    (hP : ∀ pt, (∀ k, pt k ∈ obs k) →
      ∃ r, kind.regularAt fma dims starts steps vals pt = .ok r ∧ P pt r) :
    ∃ m res, RegularObj.new np kind ((List.ofFn dims).map fun d : Nat => (d : Int)) starts' steps'
        vals' = .ok m ∧
      m.eval np fma ((List.ofFn obs).map .f32) none = .ok (.f32 res) ∧ res.length = n ∧
      ∀ i pt, PointAt obs i pt → ∃ r, res[i]? = some r ∧ P pt r := by
  have hs : IsSlice vals := by have := hG.slice; unfold IsSlice at *; simpa using this
  have hpos := fun k => hG.step_pos (kind_min kind) k
  have hvalid : RegularObj.Valid (F32 := F32) (F64 := F64)
      ⟨kind, (List.ofFn dims).map fun d : Nat => (d : Int), .f32 (List.ofFn starts),
        .f32 (List.ofFn steps), .f32 vals⟩ := by
    refine ⟨by simpa using ⟨h1, h8⟩, by simp [Arr.size], by simp [Arr.size], ?_,
      all_positive (fun k => (hfin k).2) hpos, rfl, fun _ => rfl⟩
    have := hG.len
    simp only [List.length_map, Axes.size] at this
    simp only [Arr.size]
    rw [this, ← List.prod_ofFn, ← Nat.cast_list_prod]
  have hc := (C58_regular kind ((List.ofFn dims).map fun d : Nat => (d : Int))
    (.f32 (List.ofFn starts)) (.f32 (List.ofFn steps)) (.f32 vals)).1 hvalid
  obtain ⟨interp, hB, -, hev⟩ := C60_regular_f32 np fma kind dims starts steps vals hs
    (fun k => size_le hG (by have := kind_min kind; omega) k) hG.big _ hc
  obtain ⟨res, hr1, hr2, hr3⟩ := batch_complete h1 hB obs (List.replicate n zero)
    (fun k => by rw [hobs k, List.length_replicate]) P hP
  refine ⟨⟨kind, (List.ofFn dims).map fun d : Nat => (d : Int), .f32 (List.ofFn starts),
        .f32 (List.ofFn steps), .f32 vals⟩, res, ?_, ?_, by rw [hr2, List.length_replicate], hr3⟩
  · rw [(C58_new_f32 np kind _ starts' steps' [] vals' hv64).1, hst, hsp, hv]
    exact hc
  · rw [hev obs n hobs, hr1]; rfl

private theorem class_rectilinear_f32 (np : Numpy F32 F64 X) (fma : Bool) (kind : ClassKind)
    (h1 : 1 ≤ N) (h8 : N ≤ if kind = .nearest then 6 else 8)
    (grids : Fin N → List F32) (vals : List F32)
    (hG : (Axes.rectilinear fun k => (grids k).map val).Valid kind.minNodes (vals.map val))
    (hfin : ∀ k, ∀ a ∈ grids k, Finite a)
    (grids' : List (NpArray F32 F64 X)) (hgr : grids'.map (fun g => g.values32 np) = List.ofFn grids) (vals' : NpArray F32 F64 X) (hv64 : ∀ d, vals' ≠ .f64 d)
    (hv : vals'.values32 np = vals)
    (obs : Fin N → List F32) (n : Nat) (hobs : ∀ k, (obs k).length = n)
    (P : (Fin N → F32) → F32 → Prop)
    (hP : ∀ pt, (∀ k, pt k ∈ obs k) →
      ∃ r, kind.rectilinearAt fma grids vals pt = .ok r ∧ P pt r) :
    ∃ m res, RectilinearObj.new np kind grids' vals' = .ok m ∧
      m.eval np fma ((List.ofFn obs).map .f32) none = .ok (.f32 res) ∧ res.length = n ∧
      ∀ i pt, PointAt obs i pt → ∃ r, res[i]? = some r ∧ P pt r := by
  have hs : IsSlice vals := by have := hG.slice; unfold IsSlice at *; simpa using this
  have hvalid : RectilinearObj.Valid (F32 := F32) (F64 := F64)
      ⟨kind, (List.ofFn grids).map .f32, .f32 vals⟩ := by
    refine ⟨by simpa using ⟨h1, h8⟩, ?_, ?_, ?_⟩
    · have := hG.len
      simp only [List.length_map, Axes.size] at this
      simp only [Arr.size, List.map_map]
      rw [this, ← List.prod_ofFn, List.map_ofFn]
      rfl
    · intro g hg
      rw [List.mem_map] at hg
      obtain ⟨g, hg, rfl⟩ := hg
      rw [List.mem_ofFn] at hg
      obtain ⟨k, rfl⟩ := hg
      exact increasing_steps (hfin k) fun i hi => by
        have := hG.increasing k i (by simpa [Axes.size] using hi)
        simpa [Axes.node] using this
    · intro g hg
      rw [List.mem_map] at hg
      obtain ⟨g, hg, rfl⟩ := hg
      rfl
  have hc := (C58_rectilinear kind ((List.ofFn grids).map .f32) (.f32 vals)).1 hvalid
  obtain ⟨res, hr1, hr2, hr3, -⟩ := C60_rectilinear_f32 np fma (subDetectsOrder _) kind grids vals hs
    (fun k => by simpa [Axes.size] using hG.big k) _ hc obs n hobs
  have hmap : (grids'.map fun g => (Arr.f32 (g.values32 np) : Arr F32 F64)) =
      (List.ofFn grids).map .f32 := by
    rw [← hgr, List.map_map]; rfl
  refine ⟨⟨kind, (List.ofFn grids).map .f32, .f32 vals⟩, res, ?_, hr3, hr1, fun i pt hpt => ?_⟩
  · rw [(C58_new_f32 np kind [] (.f32 []) (.f32 []) grids' vals' hv64).2, hmap, hv]
    exact hc
  · have hi : i < res.length := by
      have := hpt ⟨0, h1⟩
      obtain ⟨h2, -⟩ := List.getElem?_eq_some_iff.1 this
      rw [hr1, ← hobs ⟨0, h1⟩]; exact h2
    obtain ⟨r, hp1, hp2⟩ := hP pt fun k => List.mem_of_getElem? (hpt k)
    obtain ⟨pt', h3, h4⟩ := hr2 i res[i] (List.getElem?_eq_getElem hi)
    have e : pt' = pt := funext fun k => by
      have := (h3 k).symm.trans (hpt k)
      simpa using this
    rw [e, hp1] at h4
    have e2 : r = res[i] := (Res.ok.injEq _ _).mp h4
    exact ⟨r, by rw [e2]; exact List.getElem?_eq_getElem hi, hp2⟩

end

section
variable {N : Nat} {X : Type}

/-- C104, class `MultilinearRegular` with `float64` values. -/
theorem C104_multilinear_regular_f64 (np : Numpy F32 F64 X) (fma : Bool) (h1 : 1 ≤ N) (h8 : N ≤ 8)
    (κ : ℚ) (hκ : 0 ≤ κ) (hN : 100 * N * (1 + κ) ≤ 2 ^ 53)
    (dims : Fin N → Nat) (starts steps : Fin N → F64) (vals : List F64)
    (hG : (Axes.regular dims (fun k => val (starts k)) fun k => val (steps k)).Valid 2
      (vals.map val))
    (starts' steps' : NpArray F32 F64 X) (hst : starts'.values64 np = List.ofFn starts)
    (hsp : steps'.values64 np = List.ofFn steps)
    (hfin : ∀ k, Finite (starts k) ∧ Finite (steps k)) (hnormal : ∀ k, 1 / 2 ^ 1022 ≤ val (steps k))
    (hnodes : ∀ k, |val (starts k)| ≤ κ * val (steps k) ∧
      |val (starts k) + val (steps k) * ((dims k - 1 : Nat) : ℚ)| ≤ κ * val (steps k))
    (hlarge : ∀ k, κ * val (steps k) ≤ 2 ^ 1020)
    (M : ℚ) (hM : M ≤ 2 ^ 1020) (hvals : ∀ v ∈ vals, Finite v ∧ |val v| ≤ M)
    (obs : Fin N → List F64) (n : Nat)
    (hobs : ∀ k, (obs k).length = n ∧ ∀ a ∈ obs k, Finite a ∧
      InRange (dims k) (fun i => val (starts k) + val (steps k) * (i : ℚ)) (val a)) :
    ∃ m res, RegularObj.new np .multilinear ((List.ofFn dims).map fun d : Nat => (d : Int))
        starts' steps' (.f64 vals) = .ok m ∧
      m.eval np fma ((List.ofFn obs).map .f64) none = .ok (.f64 res) ∧ res.length = n ∧
      ∀ i pt, PointAt obs i pt → ∃ r, res[i]? = some r ∧ Finite r ∧ ∃ y,
        multilinearAt .flat false (.regular dims (fun k => val (starts k)) fun k => val (steps k))
          (vals.map val) (fun k => val (pt k)) = .ok y ∧
        |val r - y| ≤ 60 * N * (1 + κ) * (1 / 2 ^ 53) * M + 3 * N * (1 / 2 ^ 1075) := by
  refine class_regular_f64 np fma .multilinear h1 (by simpa using h8) dims starts steps vals hG hfin
    starts' steps' hst hsp obs n (fun k => (hobs k).1) (fun pt r => Finite r ∧ ∃ y,
        multilinearAt .flat false (.regular dims (fun k => val (starts k)) fun k => val (steps k))
          (vals.map val) (fun k => val (pt k)) = .ok y ∧
        |val r - y| ≤ 60 * N * (1 + κ) * (1 / 2 ^ 53) * M + 3 * N * (1 / 2 ^ 1075)) fun pt hpt => ?_
  have hin := fun k => ((hobs k).2 _ (hpt k)).2
  obtain ⟨r, y, a1, a2, a3, a4⟩ := C81_regular_f64 (linearImpl N) (linear_fits h1) fma κ hκ hN dims
    starts steps vals hG hfin hnormal hnodes hlarge M hM hvals pt (fun k => ((hobs k).2 _ (hpt k)).1) hin
  refine ⟨r, a1, a2, y, ?_, a4⟩
  rw [← a3]
  exact multilinearAt_impl .flat (linearImpl N) h1 (linear_fits h1) _ _ _ _ hG _
    (hG.inRange_fits le_rfl hin _ (by decide))

/-- C104, class `MultilinearRectilinear` with `float64` values. -/
theorem C104_multilinear_rectilinear_f64 (np : Numpy F32 F64 X) (fma : Bool) (h1 : 1 ≤ N) (h8 : N ≤ 8)
    (grids : Fin N → List F64) (vals : List F64)
    (hG : (Axes.rectilinear fun k => (grids k).map val).Valid 2 (vals.map val))
    (grids' : List (NpArray F32 F64 X)) (hgr : grids'.map (fun g => g.values64 np) = List.ofFn grids)
    (hgrid : ∀ k, ∀ a ∈ grids k, Finite a ∧ |val a| ≤ 2 ^ 1022)
    (M : ℚ) (hM : M ≤ 2 ^ 1020) (hvals : ∀ v ∈ vals, Finite v ∧ |val v| ≤ M)
    (obs : Fin N → List F64) (n : Nat)
    (hobs : ∀ k, (obs k).length = n ∧ ∀ a ∈ obs k, Finite a ∧
      InRange (grids k).length (fun i => ((grids k).map val).getD i 0) (val a)) :
    ∃ m res, RectilinearObj.new np .multilinear grids' (.f64 vals) = .ok m ∧
      m.eval np fma ((List.ofFn obs).map .f64) none = .ok (.f64 res) ∧ res.length = n ∧
      ∀ i pt, PointAt obs i pt → ∃ r, res[i]? = some r ∧ Finite r ∧ ∃ y,
        multilinearAt .flat false (.rectilinear fun k => (grids k).map val) (vals.map val)
          (fun k => val (pt k)) = .ok y ∧
        |val r - y| ≤ 26 * N * (1 / 2 ^ 53) * M + 3 * N * (1 / 2 ^ 1075) := by
  refine class_rectilinear_f64 np fma .multilinear h1 (by simpa using h8) grids vals hG
    (fun k a ha => (hgrid k a ha).1) grids' hgr obs n (fun k => (hobs k).1) (fun pt r => Finite r ∧ ∃ y,
        multilinearAt .flat false (.rectilinear fun k => (grids k).map val) (vals.map val)
          (fun k => val (pt k)) = .ok y ∧
        |val r - y| ≤ 26 * N * (1 / 2 ^ 53) * M + 3 * N * (1 / 2 ^ 1075)) fun pt hpt => ?_
  have hin := fun k => ((hobs k).2 _ (hpt k)).2
  obtain ⟨r, y, a1, a2, a3, a4⟩ := C81_rectilinear_f64 (linearImpl N) (linear_fits h1) (by omega) fma
    grids vals hG hgrid M hM hvals pt (fun k => ((hobs k).2 _ (hpt k)).1) hin
  refine ⟨r, a1, a2, y, ?_, a4⟩
  rw [← a3]
  exact multilinearAt_impl .flat (linearImpl N) h1 (linear_fits h1) _ _ _ _ hG _
    (hG.inRange_fits le_rfl (rect_in hin) _ (by decide))

/-- C104, class `MulticubicRegular` with `float64` values. -/
theorem C104_multicubic_regular_f64 (np : Numpy F32 F64 X) (fma lin : Bool) (h1 : 1 ≤ N) (h8 : N ≤ 8)
    (κ : ℚ) (hκ : 0 ≤ κ) (hN : 4200 * N * (1 + κ) ≤ 2 ^ 53)
    (dims : Fin N → Nat) (starts steps : Fin N → F64) (vals : List F64)
    (hG : (Axes.regular dims (fun k => val (starts k)) fun k => val (steps k)).Valid 4
      (vals.map val))
    (starts' steps' : NpArray F32 F64 X) (hst : starts'.values64 np = List.ofFn starts)
    (hsp : steps'.values64 np = List.ofFn steps)
    (hfin : ∀ k, Finite (starts k) ∧ Finite (steps k)) (hnormal : ∀ k, 1 / 2 ^ 1022 ≤ val (steps k))
    (hnodes : ∀ k, |val (starts k)| ≤ κ * val (steps k) ∧
      |val (starts k) + val (steps k) * ((dims k - 1 : Nat) : ℚ)| ≤ κ * val (steps k))
    (hlarge : ∀ k, κ * val (steps k) ≤ 2 ^ 1020)
    (M : ℚ) (hM : M ≤ 2 ^ 1000) (hM1 : 1 / 2 ^ 1022 ≤ M) (hvals : ∀ v ∈ vals, Finite v ∧ |val v| ≤ M)
    (obs : Fin N → List F64) (n : Nat)
    (hobs : ∀ k, (obs k).length = n ∧ ∀ a ∈ obs k, Finite a ∧
      InRange (dims k) (fun i => val (starts k) + val (steps k) * (i : ℚ)) (val a)) :
    ∃ m res, RegularObj.new np (.multicubic lin) ((List.ofFn dims).map fun d : Nat => (d : Int))
        starts' steps' (.f64 vals) = .ok m ∧
      m.eval np fma ((List.ofFn obs).map .f64) none = .ok (.f64 res) ∧ res.length = n ∧
      ∀ i pt, PointAt obs i pt → ∃ r, res[i]? = some r ∧ Finite r ∧ ∃ y,
        multicubicAt .flat false (.regular dims (fun k => val (starts k)) fun k => val (steps k))
          (vals.map val) lin (fun k => val (pt k)) = .ok y ∧
        |val r - y| ≤ 4200 * N * (1 + κ) * (1 / 2 ^ 53) * (5 / 4) ^ N * M := by
  refine class_regular_f64 np fma (.multicubic lin) h1 (by simpa using h8) dims starts steps vals hG hfin
    starts' steps' hst hsp obs n (fun k => (hobs k).1) (fun pt r => Finite r ∧ ∃ y,
        multicubicAt .flat false (.regular dims (fun k => val (starts k)) fun k => val (steps k))
          (vals.map val) lin (fun k => val (pt k)) = .ok y ∧
        |val r - y| ≤ 4200 * N * (1 + κ) * (1 / 2 ^ 53) * (5 / 4) ^ N * M) fun pt hpt => ?_
  have hin := fun k => ((hobs k).2 _ (hpt k)).2
  obtain ⟨r, y, a1, a2, a3, a4⟩ := C82_regular_f64 (cubicImpl N) (cubic_fits h1) h8 fma κ hκ hN dims
    starts steps vals lin hG hfin hnormal hnodes hlarge M hM hM1 hvals pt
    (fun k => ((hobs k).2 _ (hpt k)).1) hin
  refine ⟨r, a1, a2, y, ?_, a4⟩
  rw [← a3]
  exact multicubicAt_impl .flat (cubicImpl N) h1 (cubic_fits h1) _ _ _ _ _ hG _
    (hG.inRange_fits (by norm_num) hin _ (by decide))

/-- C104, class `MulticubicRectilinear` with `float64` values. -/
theorem C104_multicubic_rectilinear_f64 (np : Numpy F32 F64 X) (fma lin : Bool) (h1 : 1 ≤ N) (h8 : N ≤ 8)
    (grids : Fin N → List F64) (vals : List F64)
    (hG : (Axes.rectilinear fun k => (grids k).map val).Valid 4 (vals.map val))
    (grids' : List (NpArray F32 F64 X)) (hgr : grids'.map (fun g => g.values64 np) = List.ofFn grids)
    (hgrid : ∀ k, ∀ a ∈ grids k, Finite a ∧ |val a| ≤ 2 ^ 1022)
    (M : ℚ) (hM : M ≤ 2 ^ 700) (hM1 : 1 / 2 ^ 1022 ≤ M) (hvals : ∀ v ∈ vals, Finite v ∧ |val v| ≤ M)
    (ρ : ℚ) (hρ : 1 ≤ ρ) (hρ2 : ρ ≤ 2 ^ 30)
    (hmesh : ∀ k, MeshRatio (grids k).length (fun i => ((grids k).map val).getD i 0) ρ)
    (obs : Fin N → List F64) (n : Nat)
    (hobs : ∀ k, (obs k).length = n ∧ ∀ a ∈ obs k, Finite a ∧
      InRange (grids k).length (fun i => ((grids k).map val).getD i 0) (val a)) :
    ∃ m res, RectilinearObj.new np (.multicubic lin) grids' (.f64 vals) = .ok m ∧
      m.eval np fma ((List.ofFn obs).map .f64) none = .ok (.f64 res) ∧ res.length = n ∧
      ∀ i pt, PointAt obs i pt → ∃ r, res[i]? = some r ∧ Finite r ∧ ∃ y,
        multicubicAt .flat false (.rectilinear fun k => (grids k).map val) (vals.map val) lin
          (fun k => val (pt k)) = .ok y ∧
        |val r - y| ≤ 3200 * N * ρ * (1 / 2 ^ 53) * (1 + ρ ^ 2 / (2 * (1 + ρ))) ^ N * M := by
  refine class_rectilinear_f64 np fma (.multicubic lin) h1 (by simpa using h8) grids vals hG
    (fun k a ha => (hgrid k a ha).1) grids' hgr obs n (fun k => (hobs k).1) (fun pt r => Finite r ∧ ∃ y,
        multicubicAt .flat false (.rectilinear fun k => (grids k).map val) (vals.map val) lin
          (fun k => val (pt k)) = .ok y ∧
        |val r - y| ≤ 3200 * N * ρ * (1 / 2 ^ 53) * (1 + ρ ^ 2 / (2 * (1 + ρ))) ^ N * M) fun pt hpt => ?_
  have hin := fun k => ((hobs k).2 _ (hpt k)).2
  obtain ⟨r, y, a1, a2, a3, a4⟩ := C82_rectilinear_f64 (cubicImpl N) (cubic_fits h1) h8 fma
    grids vals lin hG hgrid M hM hM1 hvals pt (fun k => ((hobs k).2 _ (hpt k)).1) hin ρ hρ hρ2 hmesh
  refine ⟨r, a1, a2, y, ?_, a4⟩
  rw [← a3]
  exact multicubicAt_impl .flat (cubicImpl N) h1 (cubic_fits h1) _ _ _ _ _ hG _
    (hG.inRange_fits (by norm_num) (rect_in hin) _ (by decide))

/-- C104, class `NearestRegular` with `float64` values: the stored value of a node that is nearest up
to rounding. -/
theorem C104_nearest_regular_f64 (np : Numpy F32 F64 X) (fma : Bool) (h1 : 1 ≤ N) (h6 : N ≤ 6)
    (κ : ℚ) (hκ : 0 ≤ κ) (hN : 100 * (1 + κ) ≤ 2 ^ 53)
    (dims : Fin N → Nat) (starts steps : Fin N → F64) (vals : List F64)
    (hG : (Axes.regular dims (fun k => val (starts k)) fun k => val (steps k)).Valid 2
      (vals.map val))
    (starts' steps' : NpArray F32 F64 X) (hst : starts'.values64 np = List.ofFn starts)
    (hsp : steps'.values64 np = List.ofFn steps)
    (hfin : ∀ k, Finite (starts k) ∧ Finite (steps k)) (hnormal : ∀ k, 1 / 2 ^ 1022 ≤ val (steps k))
    (hnodes : ∀ k, |val (starts k)| ≤ κ * val (steps k) ∧
      |val (starts k) + val (steps k) * ((dims k - 1 : Nat) : ℚ)| ≤ κ * val (steps k))
    (hlarge : ∀ k, κ * val (steps k) ≤ 2 ^ 1020)
    (g : (Fin N → Nat) → F64) (hg : Samples dims vals g)
    (obs : Fin N → List F64) (n : Nat)
    (hobs : ∀ k, (obs k).length = n ∧ ∀ a ∈ obs k, Finite a ∧
      InRange (dims k) (fun i => val (starts k) + val (steps k) * (i : ℚ)) (val a)) :
    ∃ m res, RegularObj.new np .nearest ((List.ofFn dims).map fun d : Nat => (d : Int))
        starts' steps' (.f64 vals) = .ok m ∧
      m.eval np fma ((List.ofFn obs).map .f64) none = .ok (.f64 res) ∧ res.length = n ∧
      ∀ i pt, PointAt obs i pt → ∃ r, res[i]? = some r ∧ ∃ loc, r = g loc ∧
        ∀ k, NearestWithin (dims k) (fun i => val (starts k) + val (steps k) * (i : ℚ)) (val (pt k))
          (7 * (1 + κ) * (1 / 2 ^ 53) * val (steps k)) (loc k) := by
  refine class_regular_f64 np fma .nearest h1 (by simpa using h6) dims starts steps vals hG hfin
    starts' steps' hst hsp obs n (fun k => (hobs k).1) (fun pt r => ∃ loc, r = g loc ∧
        ∀ k, NearestWithin (dims k) (fun i => val (starts k) + val (steps k) * (i : ℚ)) (val (pt k))
          (7 * (1 + κ) * (1 / 2 ^ 53) * val (steps k)) (loc k)) fun pt hpt => ?_
  obtain ⟨loc, a1, a2⟩ := C83_regular_f64 fma κ hκ hN dims starts steps vals hG g hg hfin hnormal hnodes
    hlarge pt (fun k => ((hobs k).2 _ (hpt k)).1) (fun k => ((hobs k).2 _ (hpt k)).2)
  exact ⟨g loc, a1, loc, rfl, a2⟩

/-- C104, class `NearestRectilinear` with `float64` values. -/
theorem C104_nearest_rectilinear_f64 (np : Numpy F32 F64 X) (fma : Bool) (h1 : 1 ≤ N) (h6 : N ≤ 6)
    (grids : Fin N → List F64) (vals : List F64)
    (hG : (Axes.rectilinear fun k => (grids k).map val).Valid 2 (vals.map val))
    (grids' : List (NpArray F32 F64 X)) (hgr : grids'.map (fun g => g.values64 np) = List.ofFn grids)
    (hgrid : ∀ k, ∀ a ∈ grids k, Finite a ∧ |val a| ≤ 2 ^ 1022)
    (g : (Fin N → Nat) → F64) (hg : Samples (fun k => (grids k).length) vals g)
    (obs : Fin N → List F64) (n : Nat)
    (hobs : ∀ k, (obs k).length = n ∧ ∀ a ∈ obs k, Finite a ∧
      InRange (grids k).length (fun i => ((grids k).map val).getD i 0) (val a)) :
    ∃ m res, RectilinearObj.new np .nearest grids' (.f64 vals) = .ok m ∧
      m.eval np fma ((List.ofFn obs).map .f64) none = .ok (.f64 res) ∧ res.length = n ∧
      ∀ i pt, PointAt obs i pt → ∃ r, res[i]? = some r ∧ ∃ loc, r = g loc ∧
        ∀ k, ∃ c, InCell (grids k).length (fun i => ((grids k).map val).getD i 0) (val (pt k)) c ∧
          (loc k = c ∨ loc k = c + 1) ∧
          NearestWithin (grids k).length (fun i => ((grids k).map val).getD i 0) (val (pt k))
            (7 * (1 / 2 ^ 53) *
              (((grids k).map val).getD (c + 1) 0 - ((grids k).map val).getD c 0)) (loc k) := by
  refine class_rectilinear_f64 np fma .nearest h1 (by simpa using h6) grids vals hG
    (fun k a ha => (hgrid k a ha).1) grids' hgr obs n (fun k => (hobs k).1) (fun pt r => ∃ loc, r = g loc ∧
        ∀ k, ∃ c, InCell (grids k).length (fun i => ((grids k).map val).getD i 0) (val (pt k)) c ∧
          (loc k = c ∨ loc k = c + 1) ∧
          NearestWithin (grids k).length (fun i => ((grids k).map val).getD i 0) (val (pt k))
            (7 * (1 / 2 ^ 53) *
              (((grids k).map val).getD (c + 1) 0 - ((grids k).map val).getD c 0)) (loc k)) fun pt hpt => ?_
  obtain ⟨loc, a1, a2⟩ := C83_rectilinear_f64 grids vals hG g hg hgrid pt
    (fun k => ((hobs k).2 _ (hpt k)).1) (fun k => ((hobs k).2 _ (hpt k)).2)
  exact ⟨g loc, a1, loc, rfl, a2⟩

end

section
variable {N : Nat} {X : Type}

/-- C104, class `MultilinearRegular` with `float32` values. -/
theorem C104_multilinear_regular_f32 (np : Numpy F32 F64 X) (fma : Bool) (h1 : 1 ≤ N) (h8 : N ≤ 8)
    (κ : ℚ) (hκ : 0 ≤ κ) (hN : 100 * N * (1 + κ) ≤ 2 ^ 24)
    (dims : Fin N → Nat) (starts steps : Fin N → F32) (vals : List F32)
    (hG : (Axes.regular dims (fun k => val (starts k)) fun k => val (steps k)).Valid 2
      (vals.map val))
    (starts' steps' : NpArray F32 F64 X) (hst : starts'.values32 np = List.ofFn starts)
    (hsp : steps'.values32 np = List.ofFn steps)
    (vals' : NpArray F32 F64 X) (hv64 : ∀ d, vals' ≠ .f64 d) (hv : vals'.values32 np = vals)
    (hfin : ∀ k, Finite (starts k) ∧ Finite (steps k)) (hnormal : ∀ k, 1 / 2 ^ 126 ≤ val (steps k))
    (hnodes : ∀ k, |val (starts k)| ≤ κ * val (steps k) ∧
      |val (starts k) + val (steps k) * ((dims k - 1 : Nat) : ℚ)| ≤ κ * val (steps k))
    (hlarge : ∀ k, κ * val (steps k) ≤ 2 ^ 124)
    (M : ℚ) (hM : M ≤ 2 ^ 124) (hvals : ∀ v ∈ vals, Finite v ∧ |val v| ≤ M)
    (obs : Fin N → List F32) (n : Nat)
    (hobs : ∀ k, (obs k).length = n ∧ ∀ a ∈ obs k, Finite a ∧
      InRange (dims k) (fun i => val (starts k) + val (steps k) * (i : ℚ)) (val a)) :
    ∃ m res, RegularObj.new np .multilinear ((List.ofFn dims).map fun d : Nat => (d : Int))
        starts' steps' vals' = .ok m ∧
      m.eval np fma ((List.ofFn obs).map .f32) none = .ok (.f32 res) ∧ res.length = n ∧
      ∀ i pt, PointAt obs i pt → ∃ r, res[i]? = some r ∧ Finite r ∧ ∃ y,
        multilinearAt .flat false (.regular dims (fun k => val (starts k)) fun k => val (steps k))
          (vals.map val) (fun k => val (pt k)) = .ok y ∧
        |val r - y| ≤ 60 * N * (1 + κ) * (1 / 2 ^ 24) * M + 3 * N * (1 / 2 ^ 150) := by
  refine class_regular_f32 np fma .multilinear h1 (by simpa using h8) dims starts steps vals hG hfin
    starts' steps' hst hsp vals' hv64 hv obs n (fun k => (hobs k).1) (fun pt r => Finite r ∧ ∃ y,
        multilinearAt .flat false (.regular dims (fun k => val (starts k)) fun k => val (steps k))
          (vals.map val) (fun k => val (pt k)) = .ok y ∧
        |val r - y| ≤ 60 * N * (1 + κ) * (1 / 2 ^ 24) * M + 3 * N * (1 / 2 ^ 150)) fun pt hpt => ?_
  have hin := fun k => ((hobs k).2 _ (hpt k)).2
  obtain ⟨r, y, a1, a2, a3, a4⟩ := C81_regular_f32 (linearImpl N) (linear_fits h1) fma κ hκ hN dims
    starts steps vals hG hfin hnormal hnodes hlarge M hM hvals pt (fun k => ((hobs k).2 _ (hpt k)).1) hin
  refine ⟨r, a1, a2, y, ?_, a4⟩
  rw [← a3]
  exact multilinearAt_impl .flat (linearImpl N) h1 (linear_fits h1) _ _ _ _ hG _
    (hG.inRange_fits le_rfl hin _ (by decide))

/-- C104, class `MultilinearRectilinear` with `float32` values. -/
theorem C104_multilinear_rectilinear_f32 (np : Numpy F32 F64 X) (fma : Bool) (h1 : 1 ≤ N) (h8 : N ≤ 8)
    (grids : Fin N → List F32) (vals : List F32)
    (hG : (Axes.rectilinear fun k => (grids k).map val).Valid 2 (vals.map val))
    (grids' : List (NpArray F32 F64 X)) (hgr : grids'.map (fun g => g.values32 np) = List.ofFn grids)
    (vals' : NpArray F32 F64 X) (hv64 : ∀ d, vals' ≠ .f64 d) (hv : vals'.values32 np = vals)
    (hgrid : ∀ k, ∀ a ∈ grids k, Finite a ∧ |val a| ≤ 2 ^ 126)
    (M : ℚ) (hM : M ≤ 2 ^ 124) (hvals : ∀ v ∈ vals, Finite v ∧ |val v| ≤ M)
    (obs : Fin N → List F32) (n : Nat)
    (hobs : ∀ k, (obs k).length = n ∧ ∀ a ∈ obs k, Finite a ∧
      InRange (grids k).length (fun i => ((grids k).map val).getD i 0) (val a)) :
    ∃ m res, RectilinearObj.new np .multilinear grids' vals' = .ok m ∧
      m.eval np fma ((List.ofFn obs).map .f32) none = .ok (.f32 res) ∧ res.length = n ∧
      ∀ i pt, PointAt obs i pt → ∃ r, res[i]? = some r ∧ Finite r ∧ ∃ y,
        multilinearAt .flat false (.rectilinear fun k => (grids k).map val) (vals.map val)
          (fun k => val (pt k)) = .ok y ∧
        |val r - y| ≤ 26 * N * (1 / 2 ^ 24) * M + 3 * N * (1 / 2 ^ 150) := by
  refine class_rectilinear_f32 np fma .multilinear h1 (by simpa using h8) grids vals hG
    (fun k a ha => (hgrid k a ha).1) grids' hgr vals' hv64 hv obs n (fun k => (hobs k).1) (fun pt r => Finite r ∧ ∃ y,
        multilinearAt .flat false (.rectilinear fun k => (grids k).map val) (vals.map val)
          (fun k => val (pt k)) = .ok y ∧
        |val r - y| ≤ 26 * N * (1 / 2 ^ 24) * M + 3 * N * (1 / 2 ^ 150)) fun pt hpt => ?_
  have hin := fun k => ((hobs k).2 _ (hpt k)).2
  obtain ⟨r, y, a1, a2, a3, a4⟩ := C81_rectilinear_f32 (linearImpl N) (linear_fits h1) (by omega) fma
    grids vals hG hgrid M hM hvals pt (fun k => ((hobs k).2 _ (hpt k)).1) hin
  refine ⟨r, a1, a2, y, ?_, a4⟩
  rw [← a3]
  exact multilinearAt_impl .flat (linearImpl N) h1 (linear_fits h1) _ _ _ _ hG _
    (hG.inRange_fits le_rfl (rect_in hin) _ (by decide))

/-- C104, class `MulticubicRegular` with `float32` values. -/
theorem C104_multicubic_regular_f32 (np : Numpy F32 F64 X) (fma lin : Bool) (h1 : 1 ≤ N) (h8 : N ≤ 8)
    (κ : ℚ) (hκ : 0 ≤ κ) (hN : 4200 * N * (1 + κ) ≤ 2 ^ 24)
    (dims : Fin N → Nat) (starts steps : Fin N → F32) (vals : List F32)
    (hG : (Axes.regular dims (fun k => val (starts k)) fun k => val (steps k)).Valid 4
      (vals.map val))
    (starts' steps' : NpArray F32 F64 X) (hst : starts'.values32 np = List.ofFn starts)
    (hsp : steps'.values32 np = List.ofFn steps)
    (vals' : NpArray F32 F64 X) (hv64 : ∀ d, vals' ≠ .f64 d) (hv : vals'.values32 np = vals)
    (hfin : ∀ k, Finite (starts k) ∧ Finite (steps k)) (hnormal : ∀ k, 1 / 2 ^ 126 ≤ val (steps k))
    (hnodes : ∀ k, |val (starts k)| ≤ κ * val (steps k) ∧
      |val (starts k) + val (steps k) * ((dims k - 1 : Nat) : ℚ)| ≤ κ * val (steps k))
    (hlarge : ∀ k, κ * val (steps k) ≤ 2 ^ 124)
    (M : ℚ) (hM : M ≤ 2 ^ 110) (hM1 : 1 / 2 ^ 126 ≤ M) (hvals : ∀ v ∈ vals, Finite v ∧ |val v| ≤ M)
    (obs : Fin N → List F32) (n : Nat)
    (hobs : ∀ k, (obs k).length = n ∧ ∀ a ∈ obs k, Finite a ∧
      InRange (dims k) (fun i => val (starts k) + val (steps k) * (i : ℚ)) (val a)) :
    ∃ m res, RegularObj.new np (.multicubic lin) ((List.ofFn dims).map fun d : Nat => (d : Int))
        starts' steps' vals' = .ok m ∧
      m.eval np fma ((List.ofFn obs).map .f32) none = .ok (.f32 res) ∧ res.length = n ∧
      ∀ i pt, PointAt obs i pt → ∃ r, res[i]? = some r ∧ Finite r ∧ ∃ y,
        multicubicAt .flat false (.regular dims (fun k => val (starts k)) fun k => val (steps k))
          (vals.map val) lin (fun k => val (pt k)) = .ok y ∧
        |val r - y| ≤ 4200 * N * (1 + κ) * (1 / 2 ^ 24) * (5 / 4) ^ N * M := by
  refine class_regular_f32 np fma (.multicubic lin) h1 (by simpa using h8) dims starts steps vals hG hfin
    starts' steps' hst hsp vals' hv64 hv obs n (fun k => (hobs k).1) (fun pt r => Finite r ∧ ∃ y,
        multicubicAt .flat false (.regular dims (fun k => val (starts k)) fun k => val (steps k))
          (vals.map val) lin (fun k => val (pt k)) = .ok y ∧
        |val r - y| ≤ 4200 * N * (1 + κ) * (1 / 2 ^ 24) * (5 / 4) ^ N * M) fun pt hpt => ?_
  have hin := fun k => ((hobs k).2 _ (hpt k)).2
  obtain ⟨r, y, a1, a2, a3, a4⟩ := C82_regular_f32 (cubicImpl N) (cubic_fits h1) h8 fma κ hκ hN dims
    starts steps vals lin hG hfin hnormal hnodes hlarge M hM hM1 hvals pt
    (fun k => ((hobs k).2 _ (hpt k)).1) hin
  refine ⟨r, a1, a2, y, ?_, a4⟩
  rw [← a3]
  exact multicubicAt_impl .flat (cubicImpl N) h1 (cubic_fits h1) _ _ _ _ _ hG _
    (hG.inRange_fits (by norm_num) hin _ (by decide))

/-- C104, class `MulticubicRectilinear` with `float32` values. -/
theorem C104_multicubic_rectilinear_f32 (np : Numpy F32 F64 X) (fma lin : Bool) (h1 : 1 ≤ N) (h8 : N ≤ 8)
    (grids : Fin N → List F32) (vals : List F32)
    (hG : (Axes.rectilinear fun k => (grids k).map val).Valid 4 (vals.map val))
    (grids' : List (NpArray F32 F64 X)) (hgr : grids'.map (fun g => g.values32 np) = List.ofFn grids)
    (vals' : NpArray F32 F64 X) (hv64 : ∀ d, vals' ≠ .f64 d) (hv : vals'.values32 np = vals)
    (hgrid : ∀ k, ∀ a ∈ grids k, Finite a ∧ |val a| ≤ 2 ^ 126)
    (M : ℚ) (hM : M ≤ 2 ^ 40) (hM1 : 1 / 2 ^ 126 ≤ M) (hvals : ∀ v ∈ vals, Finite v ∧ |val v| ≤ M)
    (ρ : ℚ) (hρ : 1 ≤ ρ) (hρ2 : ρ ≤ 2 ^ 9)
    (hmesh : ∀ k, MeshRatio (grids k).length (fun i => ((grids k).map val).getD i 0) ρ)
    (obs : Fin N → List F32) (n : Nat)
    (hobs : ∀ k, (obs k).length = n ∧ ∀ a ∈ obs k, Finite a ∧
      InRange (grids k).length (fun i => ((grids k).map val).getD i 0) (val a)) :
    ∃ m res, RectilinearObj.new np (.multicubic lin) grids' vals' = .ok m ∧
      m.eval np fma ((List.ofFn obs).map .f32) none = .ok (.f32 res) ∧ res.length = n ∧
      ∀ i pt, PointAt obs i pt → ∃ r, res[i]? = some r ∧ Finite r ∧ ∃ y,
        multicubicAt .flat false (.rectilinear fun k => (grids k).map val) (vals.map val) lin
          (fun k => val (pt k)) = .ok y ∧
        |val r - y| ≤ 3200 * N * ρ * (1 / 2 ^ 24) * (1 + ρ ^ 2 / (2 * (1 + ρ))) ^ N * M := by
  refine class_rectilinear_f32 np fma (.multicubic lin) h1 (by simpa using h8) grids vals hG
    (fun k a ha => (hgrid k a ha).1) grids' hgr vals' hv64 hv obs n (fun k => (hobs k).1) (fun pt r => Finite r ∧ ∃ y,
        multicubicAt .flat false (.rectilinear fun k => (grids k).map val) (vals.map val) lin
          (fun k => val (pt k)) = .ok y ∧
        |val r - y| ≤ 3200 * N * ρ * (1 / 2 ^ 24) * (1 + ρ ^ 2 / (2 * (1 + ρ))) ^ N * M) fun pt hpt => ?_
  have hin := fun k => ((hobs k).2 _ (hpt k)).2
  obtain ⟨r, y, a1, a2, a3, a4⟩ := C82_rectilinear_f32 (cubicImpl N) (cubic_fits h1) h8 fma
    grids vals lin hG hgrid M hM hM1 hvals pt (fun k => ((hobs k).2 _ (hpt k)).1) hin ρ hρ hρ2 hmesh
  refine ⟨r, a1, a2, y, ?_, a4⟩
  rw [← a3]
  exact multicubicAt_impl .flat (cubicImpl N) h1 (cubic_fits h1) _ _ _ _ _ hG _
    (hG.inRange_fits (by norm_num) (rect_in hin) _ (by decide))

/-- C104, class `NearestRegular` with `float32` values: the stored value of a node that is nearest up
to rounding. -/
theorem C104_nearest_regular_f32 (np : Numpy F32 F64 X) (fma : Bool) (h1 : 1 ≤ N) (h6 : N ≤ 6)
    (κ : ℚ) (hκ : 0 ≤ κ) (hN : 100 * (1 + κ) ≤ 2 ^ 24)
    (dims : Fin N → Nat) (starts steps : Fin N → F32) (vals : List F32)
    (hG : (Axes.regular dims (fun k => val (starts k)) fun k => val (steps k)).Valid 2
      (vals.map val))
    (starts' steps' : NpArray F32 F64 X) (hst : starts'.values32 np = List.ofFn starts)
    (hsp : steps'.values32 np = List.ofFn steps)
    (vals' : NpArray F32 F64 X) (hv64 : ∀ d, vals' ≠ .f64 d) (hv : vals'.values32 np = vals)
    (hfin : ∀ k, Finite (starts k) ∧ Finite (steps k)) (hnormal : ∀ k, 1 / 2 ^ 126 ≤ val (steps k))
    (hnodes : ∀ k, |val (starts k)| ≤ κ * val (steps k) ∧
      |val (starts k) + val (steps k) * ((dims k - 1 : Nat) : ℚ)| ≤ κ * val (steps k))
    (hlarge : ∀ k, κ * val (steps k) ≤ 2 ^ 124)
    (g : (Fin N → Nat) → F32) (hg : Samples dims vals g)
    (obs : Fin N → List F32) (n : Nat)
    (hobs : ∀ k, (obs k).length = n ∧ ∀ a ∈ obs k, Finite a ∧
      InRange (dims k) (fun i => val (starts k) + val (steps k) * (i : ℚ)) (val a)) :
    ∃ m res, RegularObj.new np .nearest ((List.ofFn dims).map fun d : Nat => (d : Int))
        starts' steps' vals' = .ok m ∧
      m.eval np fma ((List.ofFn obs).map .f32) none = .ok (.f32 res) ∧ res.length = n ∧
      ∀ i pt, PointAt obs i pt → ∃ r, res[i]? = some r ∧ ∃ loc, r = g loc ∧
        ∀ k, NearestWithin (dims k) (fun i => val (starts k) + val (steps k) * (i : ℚ)) (val (pt k))
          (7 * (1 + κ) * (1 / 2 ^ 24) * val (steps k)) (loc k) := by
  refine class_regular_f32 np fma .nearest h1 (by simpa using h6) dims starts steps vals hG hfin
    starts' steps' hst hsp vals' hv64 hv obs n (fun k => (hobs k).1) (fun pt r => ∃ loc, r = g loc ∧
        ∀ k, NearestWithin (dims k) (fun i => val (starts k) + val (steps k) * (i : ℚ)) (val (pt k))
          (7 * (1 + κ) * (1 / 2 ^ 24) * val (steps k)) (loc k)) fun pt hpt => ?_
  obtain ⟨loc, a1, a2⟩ := C83_regular_f32 fma κ hκ hN dims starts steps vals hG g hg hfin hnormal hnodes
    hlarge pt (fun k => ((hobs k).2 _ (hpt k)).1) (fun k => ((hobs k).2 _ (hpt k)).2)
  exact ⟨g loc, a1, loc, rfl, a2⟩

/-- C104, class `NearestRectilinear` with `float32` values. -/
theorem C104_nearest_rectilinear_f32 (np : Numpy F32 F64 X) (fma : Bool) (h1 : 1 ≤ N) (h6 : N ≤ 6)
    (grids : Fin N → List F32) (vals : List F32)
    (hG : (Axes.rectilinear fun k => (grids k).map val).Valid 2 (vals.map val))
    (grids' : List (NpArray F32 F64 X)) (hgr : grids'.map (fun g => g.values32 np) = List.ofFn grids)
    (vals' : NpArray F32 F64 X) (hv64 : ∀ d, vals' ≠ .f64 d) (hv : vals'.values32 np = vals)
    (hgrid : ∀ k, ∀ a ∈ grids k, Finite a ∧ |val a| ≤ 2 ^ 126)
    (g : (Fin N → Nat) → F32) (hg : Samples (fun k => (grids k).length) vals g)
    (obs : Fin N → List F32) (n : Nat)
    (hobs : ∀ k, (obs k).length = n ∧ ∀ a ∈ obs k, Finite a ∧
      InRange (grids k).length (fun i => ((grids k).map val).getD i 0) (val a)) :
    ∃ m res, RectilinearObj.new np .nearest grids' vals' = .ok m ∧
      m.eval np fma ((List.ofFn obs).map .f32) none = .ok (.f32 res) ∧ res.length = n ∧
      ∀ i pt, PointAt obs i pt → ∃ r, res[i]? = some r ∧ ∃ loc, r = g loc ∧
        ∀ k, ∃ c, InCell (grids k).length (fun i => ((grids k).map val).getD i 0) (val (pt k)) c ∧
          (loc k = c ∨ loc k = c + 1) ∧
          NearestWithin (grids k).length (fun i => ((grids k).map val).getD i 0) (val (pt k))
            (7 * (1 / 2 ^ 24) *
              (((grids k).map val).getD (c + 1) 0 - ((grids k).map val).getD c 0)) (loc k) := by
  refine class_rectilinear_f32 np fma .nearest h1 (by simpa using h6) grids vals hG
    (fun k a ha => (hgrid k a ha).1) grids' hgr vals' hv64 hv obs n (fun k => (hobs k).1) (fun pt r => ∃ loc, r = g loc ∧
        ∀ k, ∃ c, InCell (grids k).length (fun i => ((grids k).map val).getD i 0) (val (pt k)) c ∧
          (loc k = c ∨ loc k = c + 1) ∧
          NearestWithin (grids k).length (fun i => ((grids k).map val).getD i 0) (val (pt k))
            (7 * (1 / 2 ^ 24) *
              (((grids k).map val).getD (c + 1) 0 - ((grids k).map val).getD c 0)) (loc k)) fun pt hpt => ?_
  obtain ⟨loc, a1, a2⟩ := C83_rectilinear_f32 grids vals hG g hg hgrid pt
    (fun k => ((hobs k).2 _ (hpt k)).1) (fun k => ((hobs k).2 _ (hpt k)).2)
  exact ⟨g loc, a1, loc, rfl, a2⟩

end


/-! #### Concrete cases -/

/-- Hypotheses of `C104_multilinear_regular_f64` are satisfied; `starts` holds whole numbers. -/
example : ∃ m res r y, RegularObj.new ieeeNumpy .multilinear [3, 2] (.other [0, 1]) (.f64 [q64 (1 / 10), q64 2]) (.f64 exVals64) = .ok m ∧
    m.eval ieeeNumpy true [.f64 [q64 (1 / 7), q64 0], .f64 [q64 (5 / 3), q64 3]] none =
      .ok (.f64 res) ∧ res.length = 2 ∧ res[0]? = some r ∧
    multilinearAt .flat false (.regular ![3, 2] (fun k => val (![q64 0, q64 1] k)) fun k => val (![q64 (1 / 10), q64 2] k))
      (exVals64.map val) (fun k => val (![q64 (1 / 7), q64 (5 / 3)] k)) = .ok y ∧ |val r - y| ≤ 1 / 10 ^ 11 := by
  obtain ⟨m, res, h1, h2, h3, h4⟩ := C104_multilinear_regular_f64 ieeeNumpy true (by norm_num) (by norm_num)
    4 (by norm_num) (by norm_num) ![3, 2] ![q64 0, q64 1] ![q64 (1 / 10), q64 2] exVals64 (valid_of_check (by decide +kernel))
    (.other [0, 1]) (.f64 [q64 (1 / 10), q64 2]) (by decide +kernel) (by decide +kernel) (by decide +kernel) (by decide +kernel)
    (by decide +kernel) (by decide +kernel) 16 (by norm_num) (by decide +kernel) ![[q64 (1 / 7), q64 0], [q64 (5 / 3), q64 3]] 2
    (by unfold InRange; decide +kernel)
  obtain ⟨r, a1, -, y, a2, a3⟩ := h4 0 ![q64 (1 / 7), q64 (5 / 3)] (by unfold PointAt; decide +kernel)
  exact ⟨m, res, r, y, h1, h2, h3, a1, a2, a3.trans (by norm_num)⟩

/-- Hypotheses of `C104_multilinear_rectilinear_f64` are satisfied; one grid holds whole numbers. -/
example : ∃ m res r y, RectilinearObj.new ieeeNumpy .multilinear [.f64 (exGrids64 0), .other [1, 3]] (.f64 exVals64) = .ok m ∧
    m.eval ieeeNumpy true [.f64 [q64 (1 / 3), q64 0], .f64 [q64 (5 / 3), q64 3]] none =
      .ok (.f64 res) ∧ res.length = 2 ∧ res[0]? = some r ∧
    multilinearAt .flat false (.rectilinear fun k => (exGrids64 k).map val) (exVals64.map val)
      (fun k => val (![q64 (1 / 3), q64 (5 / 3)] k)) = .ok y ∧ |val r - y| ≤ 1 / 10 ^ 11 := by
  obtain ⟨m, res, h1, h2, h3, h4⟩ := C104_multilinear_rectilinear_f64 ieeeNumpy true (by norm_num)
    (by norm_num) exGrids64 exVals64 (valid_of_check (by decide +kernel)) [.f64 (exGrids64 0), .other [1, 3]] (by decide +kernel)
    (by decide +kernel) 16 (by norm_num) (by decide +kernel) ![[q64 (1 / 3), q64 0], [q64 (5 / 3), q64 3]] 2 (by unfold InRange; decide +kernel)
  obtain ⟨r, a1, -, y, a2, a3⟩ := h4 0 ![q64 (1 / 3), q64 (5 / 3)] (by unfold PointAt; decide +kernel)
  exact ⟨m, res, r, y, h1, h2, h3, a1, a2, a3.trans (by norm_num)⟩

/-- Hypotheses of `C104_multicubic_regular_f64` are satisfied. -/
example : ∃ m res r y, RegularObj.new ieeeNumpy (.multicubic true) [4, 5] (.other [0, 1]) (.f64 [q64 (1 / 10), q64 2]) (.f64 exVals64c) = .ok m ∧
    m.eval ieeeNumpy true [.f64 [q64 (1 / 7), q64 0], .f64 [q64 (5 / 3), q64 3]] none =
      .ok (.f64 res) ∧ res.length = 2 ∧ res[0]? = some r ∧
    multicubicAt .flat false (.regular ![4, 5] (fun k => val (![q64 0, q64 1] k)) fun k => val (![q64 (1 / 10), q64 2] k))
      (exVals64c.map val) true (fun k => val (![q64 (1 / 7), q64 (5 / 3)] k)) = .ok y ∧ |val r - y| ≤ 1 / 10 ^ 9 := by
  obtain ⟨m, res, h1, h2, h3, h4⟩ := C104_multicubic_regular_f64 ieeeNumpy true true (by norm_num)
    (by norm_num) 5 (by norm_num) (by norm_num) ![4, 5] ![q64 0, q64 1] ![q64 (1 / 10), q64 2] exVals64c
    (valid_of_check (by decide +kernel)) (.other [0, 1]) (.f64 [q64 (1 / 10), q64 2]) (by decide +kernel) (by decide +kernel)
    (by decide +kernel) (by decide +kernel) (by decide +kernel) (by decide +kernel) 16 (by norm_num)
    (by norm_num) (by decide +kernel) ![[q64 (1 / 7), q64 0], [q64 (5 / 3), q64 3]] 2 (by unfold InRange; decide +kernel)
  obtain ⟨r, a1, -, y, a2, a3⟩ := h4 0 ![q64 (1 / 7), q64 (5 / 3)] (by unfold PointAt; decide +kernel)
  exact ⟨m, res, r, y, h1, h2, h3, a1, a2, a3.trans (by norm_num)⟩

/-- Hypotheses of `C104_multicubic_rectilinear_f64` are satisfied. -/
example : ∃ m res r y, RectilinearObj.new ieeeNumpy (.multicubic false) [.f64 (exGrids64c 0), .f64 (exGrids64c 1)] (.f64 exVals64c) = .ok m ∧
    m.eval ieeeNumpy true [.f64 [q64 (1 / 3), q64 0], .f64 [q64 (5 / 3), q64 3]] none =
      .ok (.f64 res) ∧ res.length = 2 ∧ res[0]? = some r ∧
    multicubicAt .flat false (.rectilinear fun k => (exGrids64c k).map val) (exVals64c.map val) false
      (fun k => val (![q64 (1 / 3), q64 (5 / 3)] k)) = .ok y ∧ |val r - y| ≤ 1 / 10 ^ 9 := by
  obtain ⟨m, res, h1, h2, h3, h4⟩ := C104_multicubic_rectilinear_f64 ieeeNumpy true false (by norm_num)
    (by norm_num) exGrids64c exVals64c (valid_of_check (by decide +kernel)) [.f64 (exGrids64c 0), .f64 (exGrids64c 1)] (by decide +kernel)
    (by decide +kernel) 16 (by norm_num) (by norm_num) (by decide +kernel) 2 (by norm_num) (by norm_num)
    (fun k i hi => (show ∀ k, ∀ i < (exGrids64c k).length, i + 2 < (exGrids64c k).length →
      ((exGrids64c k).map val).getD (i + 1) 0 - ((exGrids64c k).map val).getD i 0 ≤
        2 * (((exGrids64c k).map val).getD (i + 2) 0 - ((exGrids64c k).map val).getD (i + 1) 0) ∧
      ((exGrids64c k).map val).getD (i + 2) 0 - ((exGrids64c k).map val).getD (i + 1) 0 ≤
        2 * (((exGrids64c k).map val).getD (i + 1) 0 - ((exGrids64c k).map val).getD i 0) by
      decide +kernel) k i (by omega) hi)
    ![[q64 (1 / 3), q64 0], [q64 (5 / 3), q64 3]] 2 (by unfold InRange; decide +kernel)
  obtain ⟨r, a1, -, y, a2, a3⟩ := h4 0 ![q64 (1 / 3), q64 (5 / 3)] (by unfold PointAt; decide +kernel)
  exact ⟨m, res, r, y, h1, h2, h3, a1, a2, a3.trans (by norm_num)⟩

/-- Hypotheses of `C104_nearest_regular_f64` are satisfied, with a NaN among the values. -/
example : ∃ m res loc, RegularObj.new ieeeNumpy .nearest [3, 2] (.other [0, 1]) (.f64 [q64 (1 / 10), q64 2]) (.f64 (.nan :: exVals64.tail)) = .ok m ∧
    m.eval ieeeNumpy true [.f64 [q64 (1 / 7), q64 0], .f64 [q64 (5 / 3), q64 3]] none =
      .ok (.f64 res) ∧ res[0]? = some (valAt .nan ![3, 2] (.nan :: exVals64.tail) loc) := by
  obtain ⟨m, res, h1, h2, h3, h4⟩ := C104_nearest_regular_f64 ieeeNumpy true (by norm_num) (by norm_num)
    4 (by norm_num) (by norm_num) ![3, 2] ![q64 0, q64 1] ![q64 (1 / 10), q64 2] (.nan :: exVals64.tail) (valid_of_check (by decide +kernel))
    (.other [0, 1]) (.f64 [q64 (1 / 10), q64 2]) (by decide +kernel) (by decide +kernel) (by decide +kernel) (by decide +kernel)
    (by decide +kernel) (by decide +kernel) (valAt .nan ![3, 2] (.nan :: exVals64.tail)) (samples_valAt _ _ _ (by decide))
    ![[q64 (1 / 7), q64 0], [q64 (5 / 3), q64 3]] 2 (by unfold InRange; decide +kernel)
  obtain ⟨r, a1, loc, a2, -⟩ := h4 0 ![q64 (1 / 7), q64 (5 / 3)] (by unfold PointAt; decide +kernel)
  exact ⟨m, res, loc, h1, h2, a2 ▸ a1⟩

/-- Hypotheses of `C104_nearest_rectilinear_f64` are satisfied, with a NaN among the values. -/
example : ∃ m res loc, RectilinearObj.new ieeeNumpy .nearest [.f64 (exGrids64 0), .other [1, 3]] (.f64 (.nan :: exVals64.tail)) = .ok m ∧
    m.eval ieeeNumpy true [.f64 [q64 (1 / 3), q64 0], .f64 [q64 (5 / 3), q64 3]] none =
      .ok (.f64 res) ∧ res[0]? = some (valAt .nan ![3, 2] (.nan :: exVals64.tail) loc) := by
  obtain ⟨m, res, h1, h2, h3, h4⟩ := C104_nearest_rectilinear_f64 ieeeNumpy true (by norm_num)
    (by norm_num) exGrids64 (.nan :: exVals64.tail) (valid_of_check (by decide +kernel)) [.f64 (exGrids64 0), .other [1, 3]] (by decide +kernel)
    (by decide +kernel) (valAt .nan ![3, 2] (.nan :: exVals64.tail)) (samples_valAt _ _ _ (by decide))
    ![[q64 (1 / 3), q64 0], [q64 (5 / 3), q64 3]] 2 (by unfold InRange; decide +kernel)
  obtain ⟨r, a1, loc, a2, -⟩ := h4 0 ![q64 (1 / 3), q64 (5 / 3)] (by unfold PointAt; decide +kernel)
  exact ⟨m, res, loc, h1, h2, a2 ▸ a1⟩

/-- Hypotheses of `C104_multilinear_regular_f32` are satisfied; `starts` holds whole numbers. -/
example : ∃ m res r y, RegularObj.new ieeeNumpy .multilinear [3, 2] (.other [0, 1]) (.f64 [q64 (1 / 10), q64 2]) (.f32 exVals32) = .ok m ∧
    m.eval ieeeNumpy true [.f32 [q32 (1 / 7), q32 0], .f32 [q32 (5 / 3), q32 3]] none =
      .ok (.f32 res) ∧ res.length = 2 ∧ res[0]? = some r ∧
    multilinearAt .flat false (.regular ![3, 2] (fun k => val (![q32 0, q32 1] k)) fun k => val (![q32 (1 / 10), q32 2] k))
      (exVals32.map val) (fun k => val (![q32 (1 / 7), q32 (5 / 3)] k)) = .ok y ∧ |val r - y| ≤ 1 / 10 ^ 2 := by
  obtain ⟨m, res, h1, h2, h3, h4⟩ := C104_multilinear_regular_f32 ieeeNumpy true (by norm_num) (by norm_num)
    4 (by norm_num) (by norm_num) ![3, 2] ![q32 0, q32 1] ![q32 (1 / 10), q32 2] exVals32 (valid_of_check (by decide +kernel))
    (.other [0, 1]) (.f64 [q64 (1 / 10), q64 2]) (by decide +kernel) (by decide +kernel) (.f32 exVals32) (fun _ => nofun) rfl (by decide +kernel) (by decide +kernel)
    (by decide +kernel) (by decide +kernel) 16 (by norm_num) (by decide +kernel) ![[q32 (1 / 7), q32 0], [q32 (5 / 3), q32 3]] 2
    (by unfold InRange; decide +kernel)
  obtain ⟨r, a1, -, y, a2, a3⟩ := h4 0 ![q32 (1 / 7), q32 (5 / 3)] (by unfold PointAt; decide +kernel)
  exact ⟨m, res, r, y, h1, h2, h3, a1, a2, a3.trans (by norm_num)⟩

/-- Hypotheses of `C104_multilinear_rectilinear_f32` are satisfied; one grid holds whole numbers. -/
example : ∃ m res r y, RectilinearObj.new ieeeNumpy .multilinear [.f32 (exGrids32 0), .other [1, 3]] (.f32 exVals32) = .ok m ∧
    m.eval ieeeNumpy true [.f32 [q32 (1 / 3), q32 0], .f32 [q32 (5 / 3), q32 3]] none =
      .ok (.f32 res) ∧ res.length = 2 ∧ res[0]? = some r ∧
    multilinearAt .flat false (.rectilinear fun k => (exGrids32 k).map val) (exVals32.map val)
      (fun k => val (![q32 (1 / 3), q32 (5 / 3)] k)) = .ok y ∧ |val r - y| ≤ 1 / 10 ^ 2 := by
  obtain ⟨m, res, h1, h2, h3, h4⟩ := C104_multilinear_rectilinear_f32 ieeeNumpy true (by norm_num)
    (by norm_num) exGrids32 exVals32 (valid_of_check (by decide +kernel)) [.f32 (exGrids32 0), .other [1, 3]] (by decide +kernel) (.f32 exVals32) (fun _ => nofun) rfl
    (by decide +kernel) 16 (by norm_num) (by decide +kernel) ![[q32 (1 / 3), q32 0], [q32 (5 / 3), q32 3]] 2 (by unfold InRange; decide +kernel)
  obtain ⟨r, a1, -, y, a2, a3⟩ := h4 0 ![q32 (1 / 3), q32 (5 / 3)] (by unfold PointAt; decide +kernel)
  exact ⟨m, res, r, y, h1, h2, h3, a1, a2, a3.trans (by norm_num)⟩

/-- Hypotheses of `C104_multicubic_regular_f32` are satisfied. -/
example : ∃ m res r y, RegularObj.new ieeeNumpy (.multicubic true) [4, 5] (.other [0, 1]) (.f64 [q64 (1 / 10), q64 2]) (.f32 exVals32c) = .ok m ∧
    m.eval ieeeNumpy true [.f32 [q32 (1 / 7), q32 0], .f32 [q32 (5 / 3), q32 3]] none =
      .ok (.f32 res) ∧ res.length = 2 ∧ res[0]? = some r ∧
    multicubicAt .flat false (.regular ![4, 5] (fun k => val (![q32 0, q32 1] k)) fun k => val (![q32 (1 / 10), q32 2] k))
      (exVals32c.map val) true (fun k => val (![q32 (1 / 7), q32 (5 / 3)] k)) = .ok y ∧ |val r - y| ≤ 1 / 2 := by
  obtain ⟨m, res, h1, h2, h3, h4⟩ := C104_multicubic_regular_f32 ieeeNumpy true true (by norm_num)
    (by norm_num) 5 (by norm_num) (by norm_num) ![4, 5] ![q32 0, q32 1] ![q32 (1 / 10), q32 2] exVals32c
    (valid_of_check (by decide +kernel)) (.other [0, 1]) (.f64 [q64 (1 / 10), q64 2]) (by decide +kernel) (by decide +kernel) (.f32 exVals32c) (fun _ => nofun) rfl
    (by decide +kernel) (by decide +kernel) (by decide +kernel) (by decide +kernel) 16 (by norm_num)
    (by norm_num) (by decide +kernel) ![[q32 (1 / 7), q32 0], [q32 (5 / 3), q32 3]] 2 (by unfold InRange; decide +kernel)
  obtain ⟨r, a1, -, y, a2, a3⟩ := h4 0 ![q32 (1 / 7), q32 (5 / 3)] (by unfold PointAt; decide +kernel)
  exact ⟨m, res, r, y, h1, h2, h3, a1, a2, a3.trans (by norm_num)⟩

/-- Hypotheses of `C104_multicubic_rectilinear_f32` are satisfied. -/
example : ∃ m res r y, RectilinearObj.new ieeeNumpy (.multicubic false) [.f32 (exGrids32c 0), .f32 (exGrids32c 1)] (.f32 exVals32c) = .ok m ∧
    m.eval ieeeNumpy true [.f32 [q32 (1 / 3), q32 0], .f32 [q32 (5 / 3), q32 3]] none =
      .ok (.f32 res) ∧ res.length = 2 ∧ res[0]? = some r ∧
    multicubicAt .flat false (.rectilinear fun k => (exGrids32c k).map val) (exVals32c.map val) false
      (fun k => val (![q32 (1 / 3), q32 (5 / 3)] k)) = .ok y ∧ |val r - y| ≤ 1 / 2 := by
  obtain ⟨m, res, h1, h2, h3, h4⟩ := C104_multicubic_rectilinear_f32 ieeeNumpy true false (by norm_num)
    (by norm_num) exGrids32c exVals32c (valid_of_check (by decide +kernel)) [.f32 (exGrids32c 0), .f32 (exGrids32c 1)] (by decide +kernel) (.f32 exVals32c) (fun _ => nofun) rfl
    (by decide +kernel) 16 (by norm_num) (by norm_num) (by decide +kernel) 2 (by norm_num) (by norm_num)
    (fun k i hi => (show ∀ k, ∀ i < (exGrids32c k).length, i + 2 < (exGrids32c k).length →
      ((exGrids32c k).map val).getD (i + 1) 0 - ((exGrids32c k).map val).getD i 0 ≤
        2 * (((exGrids32c k).map val).getD (i + 2) 0 - ((exGrids32c k).map val).getD (i + 1) 0) ∧
      ((exGrids32c k).map val).getD (i + 2) 0 - ((exGrids32c k).map val).getD (i + 1) 0 ≤
        2 * (((exGrids32c k).map val).getD (i + 1) 0 - ((exGrids32c k).map val).getD i 0) by
      decide +kernel) k i (by omega) hi)
    ![[q32 (1 / 3), q32 0], [q32 (5 / 3), q32 3]] 2 (by unfold InRange; decide +kernel)
  obtain ⟨r, a1, -, y, a2, a3⟩ := h4 0 ![q32 (1 / 3), q32 (5 / 3)] (by unfold PointAt; decide +kernel)
  exact ⟨m, res, r, y, h1, h2, h3, a1, a2, a3.trans (by norm_num)⟩

/-- Hypotheses of `C104_nearest_regular_f32` are satisfied, with a NaN among the values. -/
example : ∃ m res loc, RegularObj.new ieeeNumpy .nearest [3, 2] (.other [0, 1]) (.f64 [q64 (1 / 10), q64 2]) (.f32 (.nan :: exVals32.tail)) = .ok m ∧
    m.eval ieeeNumpy true [.f32 [q32 (1 / 7), q32 0], .f32 [q32 (5 / 3), q32 3]] none =
      .ok (.f32 res) ∧ res[0]? = some (valAt .nan ![3, 2] (.nan :: exVals32.tail) loc) := by
  obtain ⟨m, res, h1, h2, h3, h4⟩ := C104_nearest_regular_f32 ieeeNumpy true (by norm_num) (by norm_num)
    4 (by norm_num) (by norm_num) ![3, 2] ![q32 0, q32 1] ![q32 (1 / 10), q32 2] (.nan :: exVals32.tail) (valid_of_check (by decide +kernel))
    (.other [0, 1]) (.f64 [q64 (1 / 10), q64 2]) (by decide +kernel) (by decide +kernel) (.f32 (.nan :: exVals32.tail)) (fun _ => nofun) rfl (by decide +kernel) (by decide +kernel)
    (by decide +kernel) (by decide +kernel) (valAt .nan ![3, 2] (.nan :: exVals32.tail)) (samples_valAt _ _ _ (by decide))
    ![[q32 (1 / 7), q32 0], [q32 (5 / 3), q32 3]] 2 (by unfold InRange; decide +kernel)
  obtain ⟨r, a1, loc, a2, -⟩ := h4 0 ![q32 (1 / 7), q32 (5 / 3)] (by unfold PointAt; decide +kernel)
  exact ⟨m, res, loc, h1, h2, a2 ▸ a1⟩

/-- Hypotheses of `C104_nearest_rectilinear_f32` are satisfied, with a NaN among the values. -/
example : ∃ m res loc, RectilinearObj.new ieeeNumpy .nearest [.f32 (exGrids32 0), .other [1, 3]] (.f32 (.nan :: exVals32.tail)) = .ok m ∧
    m.eval ieeeNumpy true [.f32 [q32 (1 / 3), q32 0], .f32 [q32 (5 / 3), q32 3]] none =
      .ok (.f32 res) ∧ res[0]? = some (valAt .nan ![3, 2] (.nan :: exVals32.tail) loc) := by
  obtain ⟨m, res, h1, h2, h3, h4⟩ := C104_nearest_rectilinear_f32 ieeeNumpy true (by norm_num)
    (by norm_num) exGrids32 (.nan :: exVals32.tail) (valid_of_check (by decide +kernel)) [.f32 (exGrids32 0), .other [1, 3]] (by decide +kernel) (.f32 (.nan :: exVals32.tail)) (fun _ => nofun) rfl
    (by decide +kernel) (valAt .nan ![3, 2] (.nan :: exVals32.tail)) (samples_valAt _ _ _ (by decide))
    ![[q32 (1 / 3), q32 0], [q32 (5 / 3), q32 3]] 2 (by unfold InRange; decide +kernel)
  obtain ⟨r, a1, loc, a2, -⟩ := h4 0 ![q32 (1 / 3), q32 (5 / 3)] (by unfold PointAt; decide +kernel)
  exact ⟨m, res, loc, h1, h2, a2 ▸ a1⟩

end Interpn
