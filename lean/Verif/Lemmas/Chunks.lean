import Verif.Spec.Chunks
import Verif.Props.Batch
import Verif.Props.Dispatch
import Verif.Lemmas.EntryPoints

/-! Lemmas for C114: the shape of the `interpn` entry points, and batches evaluated in parts. -/

set_option autoImplicit false

namespace Interpn

section
variable {T : Type}

theorem pick_getElem? {ix : List Nat} {a : List T} (h : ∀ i ∈ ix, i < a.length) (j : Nat) :
    (pick ix a)[j]? = ix[j]?.bind fun i => a[i]? := by
  unfold pick
  induction ix generalizing j with
  | nil => simp
  | cons i ix ih =>
    have hi := h i (by simp)
    rw [List.filterMap_cons_some (List.getElem?_eq_getElem hi)]
    cases j with
    | zero => simp [hi]
    | succ j => simpa using ih (fun k hk => h k (by simp [hk])) j

theorem pick_length {ix : List Nat} {a : List T} (h : ∀ i ∈ ix, i < a.length) :
    (pick ix a).length = ix.length := by
  unfold pick
  induction ix with
  | nil => rfl
  | cons i ix ih =>
    rw [List.filterMap_cons_some (List.getElem?_eq_getElem (h i (by simp))), List.length_cons,
      List.length_cons, ih fun k hk => h k (by simp [hk])]

/-! ### The shape of the entry points -/

theorem Pointwise.fail {s : Res Unit} (hs : s ≠ .ok ()) :
    Pointwise (T := T) fun _ out => (s, out) :=
  fun _ => .inl ⟨s, hs, fun _ _ _ => rfl⟩

theorem Pointwise.ite (p : Nat → Prop) [DecidablePred p]
    {r₁ r₂ : List (List T) → List T → Res Unit × List T} (h₁ : Pointwise r₁) (h₂ : Pointwise r₂) :
    Pointwise fun obs out => if p obs.length then r₁ obs out else r₂ obs out := by
  intro n
  by_cases hp : p n
  · rcases h₁ n with ⟨s, hs, h⟩ | ⟨one, h⟩
    · exact .inl ⟨s, hs, fun obs out ho => by
        rw [← h _ out ho]; exact if_pos (by rw [ho]; exact hp)⟩
    · refine .inr ⟨one, ?_⟩
      simpa only [List.length_ofFn, if_pos hp] using h
  · rcases h₂ n with ⟨s, hs, h⟩ | ⟨one, h⟩
    · exact .inl ⟨s, hs, fun obs out ho => by
        rw [← h _ out ho]; exact if_neg (by rw [ho]; exact hp)⟩
    · refine .inr ⟨one, ?_⟩
      simpa only [List.length_ofFn, if_neg hp] using h

theorem Pointwise.tryOut {α : Type} (c : Res α)
    {f : α → List (List T) → List T → Res Unit × List T}
    (h : ∀ s, c = .ok s → Pointwise (f s)) :
    Pointwise fun obs out => Interpn.tryOut c out fun s => f s obs out := by
  cases c with
  | ok s => exact h s rfl
  | err e => exact Pointwise.fail (by simp)
  | panic => exact Pointwise.fail (by simp)

theorem Pointwise.flat {N : Nat} {one : (Fin N → T) → Res T}
    {interp : (Fin N → List T) → List T → Res Unit × List T} (h : BatchSpec one interp) :
    Pointwise fun obs out => Interpn.tryOut (toArr N obs) out fun x => interp x out := by
  intro n
  by_cases hn : n = N
  · subst hn
    refine .inr ⟨one, ?_⟩
    simpa only [toArr_ofFn, Interpn.tryOut] using h
  · refine .inl ⟨.panic, by simp, fun obs out ho => ?_⟩
    have : toArr N obs = .panic := dif_neg (by rw [ho]; exact hn)
    simp only [this, Interpn.tryOut]

theorem Pointwise.recursive {n : Nat} {one : List T → Res T}
    {interp : List (List T) → List T → Res Unit × List T} (h : BatchSpecL n one interp) :
    Pointwise interp := by
  intro m
  by_cases hm : m = n
  · subst hm
    exact .inr ⟨_, h.toBatchSpec⟩
  · exact .inl ⟨_, by simp, fun obs out ho => h.mismatch obs out (.inl (by rw [ho]; exact hm))⟩

/-! ### Batches in parts -/

theorem joinBatch_ofFn {n : Nat} (x₁ x₂ : Fin n → List T) :
    joinBatch (List.ofFn x₁) (List.ofFn x₂) = List.ofFn fun k => x₁ k ++ x₂ k := by
  unfold joinBatch
  apply List.ext_getElem
  · simp
  · intro i h1 h2
    simp

theorem ResultsOf.append_left {n : Nat} {one : (Fin n → T) → Res T} {x₁ x₂ : Fin n → List T}
    {vs : List T} (h : ResultsOf one x₁ vs) : ResultsOf one (fun k => x₁ k ++ x₂ k) vs := by
  intro i v hv
  obtain ⟨pt, hp, ho⟩ := h i v hv
  refine ⟨pt, fun k => ?_, ho⟩
  rw [List.getElem?_append_left (List.getElem?_eq_some_iff.1 (hp k)).1]
  exact hp k

theorem PointAt.append_left {n : Nat} {x₁ x₂ : Fin n → List T} {i : Nat} {pt : Fin n → T}
    (h : PointAt x₁ i pt) : PointAt (fun k => x₁ k ++ x₂ k) i pt := fun k => by
  rw [List.getElem?_append_left (List.getElem?_eq_some_iff.1 (h k)).1]
  exact h k

theorem PointAt.append_right {n : Nat} {x₁ x₂ : Fin n → List T} {i m : Nat} {pt : Fin n → T}
    (hm : ∀ k, (x₁ k).length = m) (h : PointAt x₂ i pt) :
    PointAt (fun k => x₁ k ++ x₂ k) (m + i) pt := fun k => by
  rw [List.getElem?_append_right (by rw [hm k]; omega), hm k, Nat.add_sub_cancel_left]
  exact h k

theorem ResultsOf.append {n : Nat} {one : (Fin n → T) → Res T} {x₁ x₂ : Fin n → List T}
    {vs₁ vs₂ : List T} (hm : ∀ k, (x₁ k).length = vs₁.length) (h₁ : ResultsOf one x₁ vs₁)
    (h₂ : ResultsOf one x₂ vs₂) : ResultsOf one (fun k => x₁ k ++ x₂ k) (vs₁ ++ vs₂) := by
  intro i v hv
  by_cases hi : i < vs₁.length
  · rw [List.getElem?_append_left hi] at hv
    exact h₁.append_left i v hv
  · rw [List.getElem?_append_right (by omega)] at hv
    obtain ⟨pt, hp, ho⟩ := h₂ _ v hv
    have := hp.append_right hm
    rw [show vs₁.length + (i - vs₁.length) = i by omega] at this
    exact ⟨pt, this, ho⟩

theorem BatchSpec.join {n : Nat} {one : (Fin n → T) → Res T}
    {run : List (List T) → List T → Res Unit × List T}
    (h : BatchSpec one fun (x : Fin n → List T) out => run (List.ofFn x) out)
    (x₁ x₂ : Fin n → List T) (out₁ out₂ : List T) (h₁ : ∀ k, (x₁ k).length = out₁.length)
    (h₂ : ∀ k, (x₂ k).length = out₂.length) :
    run (List.ofFn fun k => x₁ k ++ x₂ k) (out₁ ++ out₂) =
      runBoth run (List.ofFn x₁) (List.ofFn x₂) out₁ out₂ := by
  have hl : ∀ k, (x₁ k ++ x₂ k).length = (out₁ ++ out₂).length := fun k => by
    rw [List.length_append, List.length_append, h₁ k, h₂ k]
  unfold runBoth
  rcases h.total x₁ out₁ h₁ with ⟨r₁, hr, hres⟩ | ⟨vs, pt, hlt, hres, hpt, hfail⟩
  · have e₁ : run (List.ofFn x₁) out₁ = (.ok (), r₁) := (h.ok_iff x₁ out₁ r₁).2 ⟨h₁, hr, hres⟩
    have h₁' : ∀ k, (x₁ k).length = r₁.length := fun k => by rw [h₁ k, hr]
    rw [e₁]
    rcases h.total x₂ out₂ h₂ with ⟨r₂, hr₂, hres₂⟩ | ⟨vs, pt, hlt, hres₂, hpt, hfail⟩
    · have e₂ : run (List.ofFn x₂) out₂ = (.ok (), r₂) := (h.ok_iff x₂ out₂ r₂).2 ⟨h₂, hr₂, hres₂⟩
      rw [e₂]
      exact (h.ok_iff _ _ _).2 ⟨hl, by simp [hr, hr₂], ResultsOf.append h₁' hres hres₂⟩
    · have hres' := ResultsOf.append h₁' hres hres₂
      have hpt' := hpt.append_right h₁'
      rw [← List.length_append] at hpt'
      have hlt' : (r₁ ++ vs).length < (out₁ ++ out₂).length := by
        rw [List.length_append, List.length_append, hr]; omega
      have hd : (r₁ ++ vs) ++ (out₁ ++ out₂).drop (r₁ ++ vs).length =
          r₁ ++ (vs ++ out₂.drop vs.length) := by
        rw [List.length_append, hr, List.drop_append]
        simp
      rcases hfail with ⟨e, he⟩ | he
      · have e₂ : run (List.ofFn x₂) out₂ = (.err e, vs ++ out₂.drop vs.length) :=
          h.first_err x₂ out₂ vs pt e h₂ hlt hres₂ hpt he
        have e₃ := h.first_err _ (out₁ ++ out₂) (r₁ ++ vs) pt e hl hlt' hres' hpt' he
        rw [hd] at e₃
        rw [e₂]
        exact e₃
      · have e₂ : run (List.ofFn x₂) out₂ = (.panic, vs ++ out₂.drop vs.length) :=
          h.first_panic x₂ out₂ vs pt h₂ hlt hres₂ hpt he
        have e₃ := h.first_panic _ (out₁ ++ out₂) (r₁ ++ vs) pt hl hlt' hres' hpt' he
        rw [hd] at e₃
        rw [e₂]
        exact e₃
  · have hlt' : vs.length < (out₁ ++ out₂).length := by
      rw [List.length_append]; omega
    have hd : vs ++ (out₁ ++ out₂).drop vs.length = (vs ++ out₁.drop vs.length) ++ out₂ := by
      rw [List.drop_append_of_le_length hlt.le, List.append_assoc]
    rcases hfail with ⟨e, he⟩ | he
    · have e₁ : run (List.ofFn x₁) out₁ = (.err e, vs ++ out₁.drop vs.length) :=
        h.first_err x₁ out₁ vs pt e h₁ hlt hres hpt he
      have e₃ := h.first_err _ (out₁ ++ out₂) vs pt e hl hlt' hres.append_left hpt.append_left he
      rw [hd] at e₃
      rw [e₁]
      exact e₃
    · have e₁ : run (List.ofFn x₁) out₁ = (.panic, vs ++ out₁.drop vs.length) :=
        h.first_panic x₁ out₁ vs pt h₁ hlt hres hpt he
      have e₃ := h.first_panic _ (out₁ ++ out₂) vs pt hl hlt' hres.append_left hpt.append_left he
      rw [hd] at e₃
      rw [e₁]
      exact e₃

/-- A batch may be evaluated in two parts. -/
theorem Pointwise.join {run : List (List T) → List T → Res Unit × List T} (h : Pointwise run)
    (obs₁ obs₂ : List (List T)) (out₁ out₂ : List T) (hn : obs₁.length = obs₂.length)
    (h₁ : ∀ a ∈ obs₁, a.length = out₁.length) (h₂ : ∀ a ∈ obs₂, a.length = out₂.length) :
    run (joinBatch obs₁ obs₂) (out₁ ++ out₂) = runBoth run obs₁ obs₂ out₁ out₂ := by
  rcases h obs₁.length with ⟨s, hs, h⟩ | ⟨one, h⟩
  · unfold runBoth
    rw [h _ _ (by simp [joinBatch, ← hn]), h _ out₁ rfl]
    cases s with
    | ok u => exact absurd rfl hs
    | err e => rfl
    | panic => rfl
  · obtain ⟨x₁, e₁⟩ := exists_ofFn obs₁ rfl
    obtain ⟨x₂, e₂⟩ := exists_ofFn obs₂ hn.symm
    rw [e₁] at h₁ ⊢
    rw [e₂] at h₂ ⊢
    rw [joinBatch_ofFn]
    exact h.join x₁ x₂ out₁ out₂ (List.forall_mem_ofFn_iff.1 h₁) (List.forall_mem_ofFn_iff.1 h₂)

/-- Selecting observations by index selects results. -/
theorem Pointwise.pick {run : List (List T) → List T → Res Unit × List T} (h : Pointwise run)
    (obs : List (List T)) (out r : List T) (hr : run obs out = (.ok (), r)) (ix : List Nat)
    (hix : ∀ i ∈ ix, i < out.length) (out' : List T) (hout : out'.length = ix.length) :
    run (obs.map (Interpn.pick ix)) out' = (.ok (), Interpn.pick ix r) := by
  rcases h obs.length with ⟨s, hs, h⟩ | ⟨one, h⟩
  · rw [h _ _ rfl] at hr
    exact absurd (congrArg Prod.fst hr) hs
  · obtain ⟨x, e⟩ := exists_ofFn obs rfl
    rw [e] at hr ⊢
    rw [List.map_ofFn]
    obtain ⟨hl, hrl, hres⟩ := (h.ok_iff x out r).1 hr
    have hp : ∀ k, ∀ i ∈ ix, i < (x k).length := fun k i hi => by rw [hl k]; exact hix i hi
    have hpr : ∀ i ∈ ix, i < r.length := fun i hi => by rw [hrl]; exact hix i hi
    refine C09_reorder h (fun j => ix.getD j 0) hr (fun k => ?_) ?_ (fun k i hi => ?_)
      fun i hi => ?_
    · show (Interpn.pick ix (x k)).length = _
      rw [pick_length (hp k), hout]
    · rw [pick_length hpr, hout]
    · show (Interpn.pick ix (x k))[i]? = _
      rw [pick_getElem? (hp k), List.getElem?_eq_getElem (by omega),
        List.getD_eq_getElem _ _ (by omega)]
      rfl
    · rw [pick_getElem? hpr, List.getElem?_eq_getElem (by omega),
        List.getD_eq_getElem _ _ (by omega)]
      rfl

end

end Interpn
