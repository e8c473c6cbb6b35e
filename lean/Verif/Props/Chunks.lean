import Verif.Lemmas.Chunks
import Verif.Props.PythonAgree

/-! C114: batches may be evaluated in parts, reordered and repeated, through every entry point of
the crate and through Python, whatever the grid data. -/

set_option autoImplicit false

namespace Interpn
open FloatOps

section
variable {T : Type} [FloatOps T]

/-- C114, `multilinear::regular::interpn`. -/
theorem C114_multilinear_regular (fma : Bool) (dims : List Nat) (starts steps vals : List T) :
    Pointwise (multilinearRegularInterpn fma dims starts steps vals) := by
  refine Pointwise.ite (fun n => (starts.length ≠ dims.length || steps.length ≠ dims.length ||
    n ≠ dims.length) = true) (Pointwise.fail (by simp)) ?_
  have flat : ∀ N, Pointwise (linRegularBranch fma N dims starts steps vals) := fun N =>
    Pointwise.tryOut _ fun s _ => Pointwise.flat (C09_C10_multilinear_regular fma s)
  have recu : ∀ N, Pointwise fun obs out =>
      tryOut (MultilinearRegularRecursive.new N dims starts steps vals) out
        fun s => s.interp fma obs out := fun N =>
    Pointwise.tryOut _ fun s hs => Pointwise.recursive
      (C09_C10_multilinear_regular_recursive fma hs)
  match dims.length with
  | 0 => exact Pointwise.fail (by simp)
  | 1 => exact flat 1
  | 2 => exact flat 2
  | 3 => exact flat 3
  | 4 => exact flat 4
  | 5 => exact flat 5
  | 6 => exact flat 6
  | 7 => exact recu 7
  | 8 => exact recu 8
  | n + 9 => exact Pointwise.fail (by simp)

/-- C114, `multilinear::rectilinear::interpn`. -/
theorem C114_multilinear_rectilinear (fma : Bool) (grids : List (List T)) (vals : List T) :
    Pointwise (multilinearRectilinearInterpn fma grids vals) := by
  refine Pointwise.ite (fun n => n ≠ grids.length) (Pointwise.fail (by simp)) ?_
  have flat : ∀ N, Pointwise (linRectilinearBranch fma N grids vals) := fun N =>
    Pointwise.tryOut _ fun s _ => Pointwise.flat (C09_C10_multilinear_rectilinear fma s)
  have recu : ∀ N, Pointwise fun obs out =>
      tryOut (MultilinearRectilinearRecursive.new N grids vals) out
        fun s => s.interp fma obs out := fun N =>
    Pointwise.tryOut _ fun s hs => Pointwise.recursive
      (C09_C10_multilinear_rectilinear_recursive fma hs)
  match grids.length with
  | 0 => exact Pointwise.fail (by simp)
  | 1 => exact flat 1
  | 2 => exact flat 2
  | 3 => exact flat 3
  | 4 => exact flat 4
  | 5 => exact flat 5
  | 6 => exact flat 6
  | 7 => exact recu 7
  | 8 => exact recu 8
  | n + 9 => exact Pointwise.fail (by simp)

/-- C114, `nearest::regular::interpn`. -/
theorem C114_nearest_regular (fma : Bool) (dims : List Nat) (starts steps vals : List T) :
    Pointwise (nearestRegularInterpn fma dims starts steps vals) := by
  refine Pointwise.ite (fun n => (starts.length ≠ dims.length || steps.length ≠ dims.length ||
    n ≠ dims.length) = true) (Pointwise.fail (by simp)) ?_
  have flat : ∀ N, Pointwise (nearestRegularBranch fma N dims starts steps vals) := fun N =>
    Pointwise.tryOut _ fun s _ => Pointwise.flat (C09_C10_nearest_regular fma s)
  match dims.length with
  | 0 => exact Pointwise.fail (by simp)
  | 1 => exact flat 1
  | 2 => exact flat 2
  | 3 => exact flat 3
  | 4 => exact flat 4
  | 5 => exact flat 5
  | 6 => exact flat 6
  | n + 7 => exact Pointwise.fail (by simp)

/-- C114, `nearest::rectilinear::interpn`. -/
theorem C114_nearest_rectilinear (grids : List (List T)) (vals : List T) :
    Pointwise (nearestRectilinearInterpn grids vals) := by
  refine Pointwise.ite (fun n => n ≠ grids.length) (Pointwise.fail (by simp)) ?_
  have flat : ∀ N, Pointwise (nearestRectilinearBranch N grids vals) := fun N =>
    Pointwise.tryOut _ fun s _ => Pointwise.flat (C09_C10_nearest_rectilinear s)
  match grids.length with
  | 0 => exact Pointwise.fail (by simp)
  | 1 => exact flat 1
  | 2 => exact flat 2
  | 3 => exact flat 3
  | 4 => exact flat 4
  | 5 => exact flat 5
  | 6 => exact flat 6
  | n + 7 => exact Pointwise.fail (by simp)

/-- C114, `multicubic::regular::interpn`. -/
theorem C114_multicubic_regular (fma : Bool) (dims : List Nat) (starts steps vals : List T)
    (lin : Bool) : Pointwise (multicubicRegularInterpn fma dims starts steps vals lin) := by
  unfold multicubicRegularInterpn
  have flat : ∀ N, Pointwise (cubRegularBranch fma N dims starts steps vals lin) := fun N =>
    Pointwise.tryOut _ fun s _ => Pointwise.flat (C09_C10_multicubic_regular fma s)
  have recu : ∀ N, Pointwise fun obs out =>
      tryOut (MulticubicRegularRecursive.new N dims starts steps vals lin) out
        fun s => s.interp fma obs out := fun N =>
    Pointwise.tryOut _ fun s hs => Pointwise.recursive
      (C09_C10_multicubic_regular_recursive fma hs)
  match dims.length with
  | 0 => exact Pointwise.fail (by simp)
  | 1 => exact flat 1
  | 2 => exact flat 2
  | 3 => exact flat 3
  | 4 => exact flat 4
  | 5 => exact recu 5
  | 6 => exact recu 6
  | 7 => exact recu 7
  | 8 => exact recu 8
  | n + 9 => exact Pointwise.fail (by simp)

/-- C114, `multicubic::rectilinear::interpn`. -/
theorem C114_multicubic_rectilinear (fma : Bool) (grids : List (List T)) (vals : List T)
    (lin : Bool) : Pointwise (multicubicRectilinearInterpn fma grids vals lin) := by
  unfold multicubicRectilinearInterpn
  have flat : ∀ N, Pointwise (cubRectilinearBranch fma N grids vals lin) := fun N =>
    Pointwise.tryOut _ fun s _ => Pointwise.flat (C09_C10_multicubic_rectilinear fma s)
  have recu : ∀ N, Pointwise fun obs out =>
      tryOut (MulticubicRectilinearRecursive.new N grids vals lin) out
        fun s => s.interp fma obs out := fun N =>
    Pointwise.tryOut _ fun s hs => Pointwise.recursive
      (C09_C10_multicubic_rectilinear_recursive fma hs)
  match grids.length with
  | 0 => exact Pointwise.fail (by simp)
  | 1 => exact flat 1
  | 2 => exact flat 2
  | 3 => exact flat 3
  | 4 => exact flat 4
  | 5 => exact recu 5
  | 6 => exact recu 6
  | 7 => exact recu 7
  | 8 => exact recu 8
  | n + 9 => exact Pointwise.fail (by simp)

omit [FloatOps T] in
/-- C114: a routine that evaluates observation by observation may be given a batch in two parts. The
outcome and both parts of the buffer are the same as for the whole batch, also when an observation
fails: then the evaluation of the parts stops there, too. -/
theorem C114_join {run : List (List T) → List T → Res Unit × List T} (h : Pointwise run)
    (obs₁ obs₂ : List (List T)) (out₁ out₂ : List T) (hn : obs₁.length = obs₂.length)
    (h₁ : ∀ a ∈ obs₁, a.length = out₁.length) (h₂ : ∀ a ∈ obs₂, a.length = out₂.length) :
    run (joinBatch obs₁ obs₂) (out₁ ++ out₂) = runBoth run obs₁ obs₂ out₁ out₂ :=
  h.join obs₁ obs₂ out₁ out₂ hn h₁ h₂

omit [FloatOps T] in
/-- C114: selecting, reordering or repeating observations by index does the same to the results. -/
theorem C114_pick {run : List (List T) → List T → Res Unit × List T} (h : Pointwise run)
    (obs : List (List T)) (out r : List T) (hr : run obs out = (.ok (), r)) (ix : List Nat)
    (hix : ∀ i ∈ ix, i < out.length) (out' : List T) (hout : out'.length = ix.length) :
    run (obs.map (pick ix)) out' = (.ok (), pick ix r) :=
  h.pick obs out r hr ix hix out' hout

theorem PyMethod.pointwise_regular (m : PyMethod) (fma : Bool) (dims : List Nat)
    (starts steps vals : List T) (lin : Bool) :
    Pointwise (m.runRegular fma dims starts steps vals lin) := by
  cases m
  · exact C114_multilinear_regular fma dims starts steps vals
  · exact C114_nearest_regular fma dims starts steps vals
  · exact C114_multicubic_regular fma dims starts steps vals lin

theorem PyMethod.pointwise_rectilinear (m : PyMethod) (fma : Bool) (grids : List (List T))
    (vals : List T) (lin : Bool) : Pointwise (m.runRectilinear fma grids vals lin) := by
  cases m
  · exact C114_multilinear_rectilinear fma grids vals
  · exact C114_nearest_rectilinear grids vals
  · exact C114_multicubic_rectilinear fma grids vals lin

omit [FloatOps T] in
private theorem pyResult_join (c : RawCall) {run : List (List T) → List T → Res Unit × List T}
    (h : Pointwise run) (obs₁ obs₂ : List (List T)) (out₁ out₂ : List T)
    (hn : obs₁.length = obs₂.length)
    (h₁ : ∀ a ∈ obs₁, a.length = out₁.length) (h₂ : ∀ a ∈ obs₂, a.length = out₂.length) :
    pyResult c (run (joinBatch obs₁ obs₂) (out₁ ++ out₂)) = (do
      let a ← pyResult c (run obs₁ out₁)
      let b ← pyResult c (run obs₂ out₂)
      return (a.1, a.2 ++ b.2)) := by
  rw [C114_join h obs₁ obs₂ out₁ out₂ hn h₁ h₂]
  unfold runBoth pyResult
  rcases run obs₁ out₁ with ⟨_ | _ | _, r₁⟩
  · rcases run obs₂ out₂ with ⟨_ | _ | _, r₂⟩ <;> rfl
  · rfl
  · rfl

/-- C114, Python: `interpn` on arrays concatenated axis by axis (`np.concatenate`) returns the
concatenation of what it returns for the parts, and raises what the first failing part raises. -/
theorem C114_interpn_join (fma : Bool) (dt : Dtype) (hdt : dt ≠ .other) (m : PyMethod)
    (obs₁ obs₂ grids : List (List T)) (vals : List T) (lin assume : Bool) (atol : T)
    (h2 : ∀ g ∈ grids, 2 ≤ g.length) (hn : obs₁.length = obs₂.length) (m₁ m₂ : Nat)
    (h₁ : ∀ a ∈ obs₁, a.length = m₁) (h₂ : ∀ a ∈ obs₂, a.length = m₂) :
    pyInterpn fma dt (joinBatch obs₁ obs₂) grids vals m.name none lin assume false atol = (do
      let a ← pyInterpn fma dt obs₁ grids vals m.name none lin assume false atol
      let b ← pyInterpn fma dt obs₂ grids vals m.name none lin assume false atol
      return (a.1, a.2 ++ b.2)) := by
  match obs₁, obs₂, hn, h₁, h₂ with
  | [], [], _, _, _ => rfl
  | x₁ :: r₁, x₂ :: r₂, hn, h₁, h₂ =>
    have o₁ : pyOut none (x₁ :: r₁) = .ok (List.replicate m₁ (zero : T)) := by
      rw [← h₁ x₁ (by simp)]; rfl
    have o₂ : pyOut none (x₂ :: r₂) = .ok (List.replicate m₂ (zero : T)) := by
      rw [← h₂ x₂ (by simp)]; rfl
    have o₃ : pyOut none (joinBatch (x₁ :: r₁) (x₂ :: r₂)) =
        .ok (List.replicate m₁ zero ++ List.replicate m₂ (zero : T)) := by
      rw [List.replicate_append_replicate, ← h₁ x₁ (by simp), ← h₂ x₂ (by simp),
        ← List.length_append]
      rfl
    have hl : (joinBatch (x₁ :: r₁) (x₂ :: r₂)).length = (x₁ :: r₁).length := by
      unfold joinBatch
      rw [List.length_zipWith, ← hn, Nat.min_self]
    by_cases h8 : (x₁ :: r₁).length ≤ 8
    · by_cases hreg : assume = true ∨ ∀ g ∈ grids, UniformSpacing g
      · rw [C49_regular fma dt hdt m _ grids vals none _ lin assume atol o₃ (by rw [hl]; exact h8) h2
            hreg,
          C49_regular fma dt hdt m _ grids vals none _ lin assume atol o₁ h8 h2 hreg,
          C49_regular fma dt hdt m _ grids vals none _ lin assume atol o₂ (by rw [← hn]; exact h8) h2
            hreg]
        exact pyResult_join _ (m.pointwise_regular fma _ _ _ vals lin) _ _ _ _ hn
          (by simpa using h₁) (by simpa using h₂)
      · by_cases h8' : grids.length ≤ 8
        · rw [C49_rectilinear fma dt hdt m _ grids vals none _ lin assume atol o₃
              (by rw [hl]; exact h8) h8' h2 hreg,
            C49_rectilinear fma dt hdt m _ grids vals none _ lin assume atol o₁ h8 h8' h2 hreg,
            C49_rectilinear fma dt hdt m _ grids vals none _ lin assume atol o₂
              (by rw [← hn]; exact h8) h8' h2 hreg]
          exact pyResult_join _ (m.pointwise_rectilinear fma _ vals lin) _ _ _ _ hn
            (by simpa using h₁) (by simpa using h₂)
        · push Not at hreg
          obtain ⟨ha, hu⟩ := hreg
          obtain rfl : assume = false := by simpa using ha
          rw [C49_too_many_grids fma dt hdt m _ grids vals none _ lin false atol o₃ (not_le.1 h8') h2
              hu,
            C49_too_many_grids fma dt hdt m _ grids vals none _ lin false atol o₁ (not_le.1 h8') h2
              hu]
          rfl
    · rw [C49_too_many fma dt hdt m _ grids vals none _ lin assume false atol o₃
          (by rw [hl]; exact not_le.1 h8) h2,
        C49_too_many fma dt hdt m _ grids vals none _ lin assume false atol o₁ (not_le.1 h8) h2]
      rfl

/-- C114, Python: indexing the observation arrays with a list of indices (in numpy
`[x[ix] for x in obs]`: selection, permutation, repetition) indexes the returned array. -/
theorem C114_interpn_pick (fma : Bool) (dt : Dtype) (hdt : dt ≠ .other) (m : PyMethod)
    (obs grids : List (List T)) (vals : List T) (lin assume : Bool) (atol : T)
    (h2 : ∀ g ∈ grids, 2 ≤ g.length) (c : RawCall) (r : List T)
    (hr : pyInterpn fma dt obs grids vals m.name none lin assume false atol = .ok (c, r))
    (ix : List Nat) (hix : ∀ i ∈ ix, i < r.length) :
    pyInterpn fma dt (obs.map (pick ix)) grids vals m.name none lin assume false atol =
      .ok (c, pick ix r) := by
  match obs with
  | [] => cases hr
  | x :: rest =>
    have o₁ : pyOut none (x :: rest) = .ok (List.replicate x.length (zero : T)) := rfl
    have o₂ : pyOut none ((x :: rest).map (pick ix)) =
      .ok (List.replicate (pick ix x).length (zero : T)) := rfl
    have key : ∀ (c' : RawCall) (run : List (List T) → List T → Res Unit × List T), Pointwise run →
        pyResult c' (run (x :: rest) (List.replicate x.length zero)) = .ok (c, r) →
        pyResult c' (run ((x :: rest).map (pick ix)) (List.replicate (pick ix x).length zero)) =
          .ok (c, pick ix r) := by
      intro c' run h hp
      rcases hrun : run (x :: rest) (List.replicate x.length zero) with ⟨_ | _ | _, r'⟩
      · rw [hrun] at hp
        obtain ⟨rfl, rfl⟩ : c' = c ∧ r' = r := by simpa [pyResult] using hp
        have hlen : r'.length = x.length := by
          rcases h (x :: rest).length with ⟨s, hs, h⟩ | ⟨one, h⟩
          · rw [h _ _ rfl] at hrun
            exact absurd (congrArg Prod.fst hrun) hs
          · obtain ⟨y, e⟩ := exists_ofFn (x :: rest) rfl
            rw [e] at hrun
            simpa using ((h.ok_iff y _ r').1 hrun).2.1
        rw [C114_pick h _ _ r' hrun ix (fun i hi => by
            rw [List.length_replicate, ← hlen]; exact hix i hi) _ (by
            rw [List.length_replicate, pick_length fun i hi => by rw [← hlen]; exact hix i hi])]
        rfl
      · rw [hrun] at hp; cases hp
      · rw [hrun] at hp; cases hp
    by_cases h8 : (x :: rest).length ≤ 8
    · have h8m : ((x :: rest).map (pick ix)).length ≤ 8 := by rwa [List.length_map]
      by_cases hreg : assume = true ∨ ∀ g ∈ grids, UniformSpacing g
      · rw [C49_regular fma dt hdt m _ grids vals none _ lin assume atol o₁ h8 h2 hreg] at hr
        rw [C49_regular fma dt hdt m _ grids vals none _ lin assume atol o₂ h8m h2 hreg]
        exact key _ _ (m.pointwise_regular fma _ _ _ vals lin) hr
      · by_cases h8' : grids.length ≤ 8
        · rw [C49_rectilinear fma dt hdt m _ grids vals none _ lin assume atol o₁ h8 h8' h2 hreg] at hr
          rw [C49_rectilinear fma dt hdt m _ grids vals none _ lin assume atol o₂ h8m h8' h2 hreg]
          exact key _ _ (m.pointwise_rectilinear fma _ vals lin) hr
        · push Not at hreg
          obtain ⟨ha, hu⟩ := hreg
          obtain rfl : assume = false := by simpa using ha
          rw [C49_too_many_grids fma dt hdt m _ grids vals none _ lin false atol o₁ (not_le.1 h8') h2
              hu] at hr
          cases hr
    · rw [C49_too_many fma dt hdt m _ grids vals none _ lin assume false atol o₁ (not_le.1 h8) h2]
        at hr
      cases hr

theorem ClassKind.pointwise_regular (m : ClassKind) (fma : Bool) (dims : List Nat)
    (starts steps vals : List T) : Pointwise (m.runRegular fma dims starts steps vals) := by
  cases m
  · exact C114_multilinear_regular fma dims starts steps vals
  · exact C114_nearest_regular fma dims starts steps vals
  · exact C114_multicubic_regular fma dims starts steps vals _

theorem ClassKind.pointwise_rectilinear (m : ClassKind) (fma : Bool) (grids : List (List T))
    (vals : List T) : Pointwise (m.runRectilinear fma grids vals) := by
  cases m
  · exact C114_multilinear_rectilinear fma grids vals
  · exact C114_nearest_rectilinear grids vals
  · exact C114_multicubic_rectilinear fma grids vals _

/-- Evaluating in parts and indexing, for a method `ev` of a Python object that takes observation
arrays and returns a new array: concatenated arrays give the concatenated result, the first failing
part raises; indexed arrays give the indexed result. -/
def ChunksSpec {A : Type} (wrap : List T → A) (ev : List (List T) → Except PyExc A) : Prop :=
  (∀ (obs₁ obs₂ : List (List T)) (m₁ m₂ : Nat), obs₁.length = obs₂.length → obs₁.length ≤ 8 →
    (∀ a ∈ obs₁, a.length = m₁) → (∀ a ∈ obs₂, a.length = m₂) →
    (∀ r₁ r₂, ev obs₁ = .ok (wrap r₁) → ev obs₂ = .ok (wrap r₂) →
      ev (joinBatch obs₁ obs₂) = .ok (wrap (r₁ ++ r₂))) ∧
    (∀ e, ev obs₁ = .error e → ev (joinBatch obs₁ obs₂) = .error e) ∧
    (∀ r₁ e, ev obs₁ = .ok (wrap r₁) → ev obs₂ = .error e →
      ev (joinBatch obs₁ obs₂) = .error e)) ∧
  ∀ (obs : List (List T)) (r : List T) (ix : List Nat), obs.length ≤ 8 → ev obs = .ok (wrap r) →
    (∀ i ∈ ix, i < r.length) → ev (obs.map (pick ix)) = .ok (wrap (pick ix r))

private theorem chunksSpec {A : Type} {wrap : List T → A} (hw : Function.Injective wrap)
    {ev : List (List T) → Except PyExc A} {run : List (List T) → List T → Res Unit × List T}
    (h : Pointwise run) (e0 : ∃ e, ev [] = .error e)
    (hev : ∀ o rest, (o :: rest).length ≤ 8 →
      ev (o :: rest) = pyOutcome wrap (run (o :: rest) (List.replicate o.length zero))) :
    ChunksSpec wrap ev := by
  obtain ⟨e0, he0⟩ := e0
  refine ⟨fun obs₁ obs₂ m₁ m₂ hn h8 h₁ h₂ => ?_, fun obs r ix h8 hr hix => ?_⟩
  · match obs₁, obs₂, hn, h8, h₁, h₂ with
    | [], [], _, _, _, _ =>
      refine ⟨fun r₁ r₂ a => ?_, fun e a => a, fun r₁ e a => ?_⟩
      · rw [he0] at a; cases a
      · rw [he0] at a; cases a
    | x₁ :: r₁, x₂ :: r₂, hn, h8, h₁, h₂ =>
      have hl : (joinBatch (x₁ :: r₁) (x₂ :: r₂)).length = (x₁ :: r₁).length := by
        unfold joinBatch
        rw [List.length_zipWith, ← hn, Nat.min_self]
      have hj : ev (joinBatch (x₁ :: r₁) (x₂ :: r₂)) = pyOutcome wrap
          (runBoth run (x₁ :: r₁) (x₂ :: r₂) (List.replicate x₁.length zero)
            (List.replicate x₂.length zero)) := by
        rw [← C114_join h _ _ _ _ hn
          (fun a ha => by rw [List.length_replicate, h₁ a ha, h₁ x₁ (by simp)])
          (fun a ha => by rw [List.length_replicate, h₂ a ha, h₂ x₂ (by simp)]),
          List.replicate_append_replicate, ← List.length_append]
        exact hev _ _ (by rw [← hl] at h8; exact h8)
      rw [hj, hev _ _ h8, hev _ _ (by rw [← hn]; exact h8)]
      unfold runBoth pyOutcome
      rcases run (x₁ :: r₁) (List.replicate x₁.length zero) with ⟨_ | _ | _, s₁⟩
      · rcases run (x₂ :: r₂) (List.replicate x₂.length zero) with ⟨_ | _ | _, s₂⟩
        · refine ⟨fun a b ha hb => ?_, fun e he => ?_, fun a e ha he => ?_⟩
          · rw [← hw (Except.ok.inj ha), ← hw (Except.ok.inj hb)]
          · cases he
          · cases he
        · exact ⟨fun a b _ hb => by (cases hb), fun e he => by (cases he), fun a e _ he => he⟩
        · exact ⟨fun a b _ hb => by (cases hb), fun e he => by (cases he), fun a e _ he => he⟩
      · exact ⟨fun a b ha _ => by (cases ha), fun e he => he, fun a e ha _ => by (cases ha)⟩
      · exact ⟨fun a b ha _ => by (cases ha), fun e he => he, fun a e ha _ => by (cases ha)⟩
  · match obs with
    | [] => rw [he0] at hr; cases hr
    | x :: rest =>
      rw [hev _ _ h8] at hr
      rcases hrun : run (x :: rest) (List.replicate x.length zero) with ⟨_ | _ | _, r'⟩
      · rw [hrun] at hr
        obtain rfl : r' = r := hw (Except.ok.inj hr)
        have hlen : r'.length = x.length := by
          rcases h (x :: rest).length with ⟨s, hs, h⟩ | ⟨one, h⟩
          · rw [h _ _ rfl] at hrun
            exact absurd (congrArg Prod.fst hrun) hs
          · obtain ⟨y, e⟩ := exists_ofFn (x :: rest) rfl
            rw [e] at hrun
            simpa using ((h.ok_iff y _ r').1 hrun).2.1
        rw [List.map_cons, hev _ _ (by simpa using h8), ← List.map_cons,
          C114_pick h _ _ r' hrun ix (fun i hi => by
            rw [List.length_replicate, ← hlen]; exact hix i hi) _ (by
            rw [List.length_replicate, pick_length fun i hi => by rw [← hlen]; exact hix i hi])]
        rfl
      · rw [hrun] at hr; cases hr
      · rw [hrun] at hr; cases hr

end

section Classes
variable {F32 F64 X : Type} [FloatOps F32] [FloatOps F64]

/-- C114, `eval` of the three regular classes on float64. -/
theorem C114_class_regular_f64 (np : Numpy F32 F64 X) (fma : Bool) (kind : ClassKind)
    (dims : List Nat) (starts steps vals : List F64) (hd : ∀ d ∈ dims, d ≤ usizeMax) :
    ChunksSpec (A := NpArray F32 F64 X) .f64 fun obs => RegularObj.eval np fma
      ⟨kind, dims.map fun d : Nat => (d : Int), .f64 starts, .f64 steps, .f64 vals⟩
      (obs.map .f64) none :=
  chunksSpec (fun _ _ h => by injection h) (kind.pointwise_regular fma dims starts steps vals)
    ⟨_, rfl⟩ fun o rest h8 =>
      (C59_regular_f64 np fma kind dims starts steps vals (o :: rest) hd h8).2.1 o rest rfl

/-- C114, `eval` of the three regular classes on float32. -/
theorem C114_class_regular_f32 (np : Numpy F32 F64 X) (fma : Bool) (kind : ClassKind)
    (dims : List Nat) (starts steps vals : List F32) (hd : ∀ d ∈ dims, d ≤ usizeMax) :
    ChunksSpec (A := NpArray F32 F64 X) .f32 fun obs => RegularObj.eval np fma
      ⟨kind, dims.map fun d : Nat => (d : Int), .f32 starts, .f32 steps, .f32 vals⟩
      (obs.map .f32) none :=
  chunksSpec (fun _ _ h => by injection h) (kind.pointwise_regular fma dims starts steps vals)
    ⟨_, rfl⟩ fun o rest h8 =>
      (C59_regular_f32 np fma kind dims starts steps vals (o :: rest) hd h8).2.1 o rest rfl

/-- C114, `eval` of the three rectilinear classes on float64. -/
theorem C114_class_rectilinear_f64 (np : Numpy F32 F64 X) (fma : Bool) (kind : ClassKind)
    (grids : List (List F64)) (vals : List F64) (h8 : grids.length ≤ 8) :
    ChunksSpec (A := NpArray F32 F64 X) .f64 fun obs => RectilinearObj.eval np fma
      ⟨kind, grids.map .f64, .f64 vals⟩ (obs.map .f64) none :=
  chunksSpec (fun _ _ h => by injection h) (kind.pointwise_rectilinear fma grids vals)
    ⟨_, rfl⟩ fun o rest h8o =>
      (C59_rectilinear_f64 np fma kind grids vals (o :: rest) h8o h8).2.1 o rest rfl

/-- C114, `eval` of the three rectilinear classes on float32. -/
theorem C114_class_rectilinear_f32 (np : Numpy F32 F64 X) (fma : Bool) (kind : ClassKind)
    (grids : List (List F32)) (vals : List F32) (h8 : grids.length ≤ 8) :
    ChunksSpec (A := NpArray F32 F64 X) .f32 fun obs => RectilinearObj.eval np fma
      ⟨kind, grids.map .f32, .f32 vals⟩ (obs.map .f32) none :=
  chunksSpec (fun _ _ h => by injection h) (kind.pointwise_rectilinear fma grids vals)
    ⟨_, rfl⟩ fun o rest h8o =>
      (C59_rectilinear_f32 np fma kind grids vals (o :: rest) h8o h8).2.1 o rest rfl

end Classes

section Examples
attribute [local instance] ratOps

/-- The hypotheses of C114 on a two-dimensional regular grid: a batch of three observations in two
parts, and the same batch reversed with one observation repeated. -/
example :
    joinBatch [[1/2], [1/2]] [[1, 2], [0, 1]] = [[1/2, 1, 2], [1/2, 0, (1 : ℚ)]] ∧
    pyInterpn false .float64 [[1/2], [1/2]] [[0, 1, 2], [0, 1]] [0, 0, 1, 2, 3, (5 : ℚ)]
      PyMethod.linear.name none true false false 0 = .ok (⟨"linear", true, .float64⟩, [3/4]) ∧
    pyInterpn false .float64 [[1, 2], [0, 1]] [[0, 1, 2], [0, 1]] [0, 0, 1, 2, 3, (5 : ℚ)]
      PyMethod.linear.name none true false false 0 = .ok (⟨"linear", true, .float64⟩, [1, 5]) ∧
    pyInterpn false .float64 [[1/2, 1, 2], [1/2, 0, 1]] [[0, 1, 2], [0, 1]] [0, 0, 1, 2, 3, (5 : ℚ)]
      PyMethod.linear.name none true false false 0 =
        .ok (⟨"linear", true, .float64⟩, [3/4, 1, 5]) ∧
    [[1/2, 1, 2], [1/2, 0, (1 : ℚ)]].map (pick [2, 1, 0, 2]) =
      [[2, 1, 1/2, 2], [1, 0, 1/2, 1]] ∧
    pyInterpn false .float64 [[2, 1, 1/2, 2], [1, 0, 1/2, 1]] [[0, 1, 2], [0, 1]]
      [0, 0, 1, 2, 3, (5 : ℚ)] PyMethod.linear.name none true false false 0 =
        .ok (⟨"linear", true, .float64⟩, [5, 1, 3/4, 5]) := by
  decide +kernel

/-- The hypotheses of `ChunksSpec` for a `MulticubicRectilinear` object on a non-uniform axis: both
parts succeed, and so do the whole batch and the reversed one. -/
example :
    let m : RectilinearObj ℚ ℚ := ⟨.multicubic true, [.f32 [0, 1, 3, 4]], .f32 [1, 2, 4, 5]⟩
    RectilinearObj.eval exNumpy true m [.f32 [1/2]] none = .ok (.f32 [3/2]) ∧
    RectilinearObj.eval exNumpy true m [.f32 [6, 0]] none = .ok (.f32 [7, 1]) ∧
    RectilinearObj.eval exNumpy true m [.f32 [1/2, 6, 0]] none = .ok (.f32 [3/2, 7, 1]) ∧
    RectilinearObj.eval exNumpy true m [.f32 (pick [2, 1, 0] [1/2, 6, 0])] none =
      .ok (.f32 [1, 7, 3/2]) := by
  decide +kernel

end Examples

end Interpn
