import Verif.Lemmas.ValueScale

/-! The one-dimensional interpolators on two tables that are related value by value, where the relation
need not survive every arithmetic operation. -/

set_option autoImplicit false

namespace Interpn
open FloatOps

section
variable {T : Type} [FloatOps T]

/-- The nodes of a sample of a rectilinear grid are adjacent nodes of the grid. -/
theorem rectilinear_sample_nodes {grid vals : List T} {loc : T} {g : GridSample T} (hs : IsSlice vals)
    (h : (RectilinearGrid1D.new grid vals >>= fun r => r.at loc) = .ok g) :
    ∃ i, grid[i]? = some g.x0 ∧ grid[i + 1]? = some g.x1 := by
  unfold RectilinearGrid1D.new at h
  by_cases hl : vals.length = grid.length ∧ 2 ≤ grid.length
  · obtain ⟨e, h2⟩ := hl
    rw [if_neg (by omega), Res.ok_bind, RectilinearGrid1D.at_ok h2
      (by rw [isSlice_iff] at hs ⊢; omega) e] at h
    cases h
    have hb := linCell_bound h2 loc
    refine ⟨linCell grid loc, ?_, ?_⟩ <;> dsimp only <;>
      rw [List.getElem?_eq_getElem (by omega), List.getD_eq_getElem _ _ (by omega)]
  · rw [if_pos (by omega)] at h
    cases h

/-- The nodes of a sample of a regular grid. -/
theorem regular_sample_nodes {start step loc : T} {vals : List T} {g : GridSample T} (hs : IsSlice vals)
    (h : (RegularGrid1D.new start step vals >>= fun r => r.at loc) = .ok g) :
    ∃ i n, i + 1 < vals.length ∧ ofUsize i = some n ∧ g.x0 = start +. step *. n ∧
      g.x1 = g.x0 +. step := by
  by_cases h1 : 1 ≤ vals.length
  case neg =>
    unfold RegularGrid1D.new usub at h
    rw [if_neg (by omega)] at h
    cases h
  cases hm : (ofUsize (vals.length - 1) : Option T) with
  | none =>
    unfold RegularGrid1D.new at h
    rw [usub_ok h1, Res.ok_bind, hm] at h
    cases h
  | some m =>
    rw [RegularGrid1D.new_ok h1 hm, Res.ok_bind] at h
    cases hi : rawCell start step loc with
    | none => rw [RegularGrid1D.at_err hi] at h; cases h
    | some z =>
      by_cases h2 : 2 ≤ vals.length
      case neg => rw [RegularGrid1D.at_panic (by omega) (by simp [hi])] at h; cases h
      have hle := clampIdx_le z (vals.length - 2)
      cases hf : (ofUsize (clampIdx z (vals.length - 2)) : Option T) with
      | none =>
        unfold RegularGrid1D.at at h
        rw [RegularGrid1D.index_ok h2 hs hi, Res.ok_bind] at h
        simp only [hf] at h
        cases h
      | some n =>
        rw [RegularGrid1D.at_ok h2 hs hi hf] at h
        cases h
        exact ⟨_, n, by omega, hf, rfl, rfl⟩

/-- The outcome of an interpolator for two tables. -/
theorem evalOne_pair {R R' : T → T → Prop} (fma : Bool) (kind : Kind1D) (loc : T) {n : Nat}
    {sample : List T → Res (GridSample T)} {vals vals' : List T} (hp : SamplesPair n sample)
    (hv : List.Forall₂ R vals vals') (hl : vals.length = n) (hR : ∀ a b, R a b → R' a b)
    (hlin : kind = .linear ∨ kind = .linearHoldLast → ∀ x0 x1 y0 y1 y0' y1' ex,
      sample vals = .ok ⟨x0, y0, x1, y1, ex⟩ → y0 ∈ vals → y1 ∈ vals → R y0 y0' → R y1 y1' →
      R' (linear1 fma ⟨x0, y0, x1, y1, ex⟩ loc) (linear1 fma ⟨x0, y0', x1, y1', ex⟩ loc)) :
    SameOutcome R' (kind.evalOne fma (fun _ => sample vals) loc)
      (kind.evalOne fma (fun _ => sample vals') loc) := by
  have hl' : vals'.length = n := hv.length_eq ▸ hl
  rcases hp with ⟨i, x0, x1, ex, hi, hs⟩ | hbad
  · obtain ⟨y0, y1, a0, a1, a2⟩ := hs vals hl
    obtain ⟨y0', y1', b0, b1, b2⟩ := hs vals' hl'
    have hget : ∀ (j : Nat) (a b : T), vals[j]? = some a → vals'[j]? = some b → R a b := by
      intro j a b ha hb
      obtain ⟨i1, e1⟩ := List.getElem?_eq_some_iff.1 ha
      obtain ⟨i2, e2⟩ := List.getElem?_eq_some_iff.1 hb
      rw [← e1, ← e2]
      exact List.forall₂_iff_get.1 hv |>.2 _ i1 i2
    have r0 := hR _ _ (hget _ _ _ a0 b0)
    have r1 := hR _ _ (hget _ _ _ a1 b1)
    have hlin := fun hk => hlin hk x0 x1 y0 y1 y0' y1' ex a2 (List.mem_of_getElem? a0)
      (List.mem_of_getElem? a1) (hget _ _ _ a0 b0) (hget _ _ _ a1 b1)
    cases kind <;> simp only [Kind1D.evalOne]
    · unfold Linear1D.evalOne
      rw [a2, b2]
      exact .ok (hlin (.inl rfl))
    · unfold LinearHoldLast1D.evalOne
      rw [a2, b2]
      cases ex
      · exact .ok (hlin (.inr rfl))
      · exact .ok r0
      · exact .ok r1
    · unfold Left1D.evalOne
      rw [a2, b2]
      cases ex
      · exact .ok r0
      · exact .ok r0
      · exact .ok r1
    · unfold Right1D.evalOne
      rw [a2, b2]
      cases ex
      · exact .ok r1
      · exact .ok r0
      · exact .ok r1
    · unfold Nearest1D.evalOne
      rw [a2, b2]
      simp only [Res.ok_bind, Res.pure_eq]
      refine .ok ?_
      split
      · exact r0
      · exact r1
  · obtain ⟨e, hno⟩ := hbad vals vals' hl hl'
    have hf : ∀ F : Res (GridSample T) → Res T, (F = fun r => r >>= fun g => F (.ok g)) →
        SameOutcome R' (F (sample vals)) (F (sample vals')) := by
      intro F hF
      rw [← e, hF]
      cases hr : sample vals with
      | ok v => exact absurd hr (hno v)
      | err m => exact .err m
      | panic => exact .panic
    cases kind
    · exact hf (fun r => Linear1D.evalOne fma (fun _ => r) loc) (by
        funext r; cases r <;> rfl)
    · exact hf (fun r => LinearHoldLast1D.evalOne fma (fun _ => r) loc) (by
        funext r; cases r <;> rfl)
    · exact hf (fun r => Left1D.evalOne (fun _ => r) loc) (by
        funext r; cases r <;> rfl)
    · exact hf (fun r => Right1D.evalOne (fun _ => r) loc) (by
        funext r; cases r <;> rfl)
    · exact hf (fun r => Nearest1D.evalOne (fun _ => r) loc) (by
        funext r; cases r <;> rfl)

theorem regular1DAt_sample (fma : Bool) (kind : Kind1D) (start step loc : T) (v : List T) :
    regular1DAt (kind.evalOne fma) start step v loc =
      kind.evalOne fma (fun _ => RegularGrid1D.new start step v >>= fun g => g.at loc) loc := by
  unfold regular1DAt
  cases RegularGrid1D.new start step v with
  | ok g => cases kind <;> rfl
  | err m => cases kind <;> rfl
  | panic => cases kind <;> rfl

theorem rectilinear1DAt_sample (fma : Bool) (kind : Kind1D) (grid : List T) (loc : T) (v : List T) :
    rectilinear1DAt (kind.evalOne fma) grid v loc =
      kind.evalOne fma (fun _ => RectilinearGrid1D.new grid v >>= fun g => g.at loc) loc := by
  unfold rectilinear1DAt
  cases RectilinearGrid1D.new grid v with
  | ok g => cases kind <;> rfl
  | err m => cases kind <;> rfl
  | panic => cases kind <;> rfl

end

namespace Ieee
variable {f : Format} {k : Nat} {m : Int}

theorem Up.linear1 (fma : Bool) {r s : Nat} {x0 x1 y0 y1 y0' y1' x : Ieee f} {ex : Extrap}
    (hw : |val (x1 -. x0)| ≤ 2 ^ r) (hx : Multiple (-s) (val (x -. x0)))
    (hm : f.low ≤ m - (r + s + f.p - 1 : Int)) (h0 : Up k m y0 y0') (h1 : Up k m y1 y1') :
    Up k (m - (r + s + f.p - 1 : Int)) (linear1 fma ⟨x0, y0, x1, y1, ex⟩ x)
      (Interpn.linear1 fma ⟨x0, y0', x1, y1', ex⟩ x) := by
  have hp := f.two_le_p
  have hl : f.low = f.emin - (f.p - 1 : Int) := rfl
  rw [show m - (r + s + f.p - 1 : Int) = m - r - (f.p - 1 : Int) - s by ring] at hm ⊢
  have hd := (Up.sub (by omega) h1 h0).div hw (by omega)
  have h0' := h0.of_le (m' := m - r - (f.p - 1 : Int) - s) (by omega)
  unfold Interpn.linear1
  cases fma
  · exact Up.add hm h0' (hd.mulR hx hm)
  · exact hd.fmaR hx hm h0'

end Ieee
end Interpn
