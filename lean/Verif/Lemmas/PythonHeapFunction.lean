import Verif.Lemmas.PythonHeapInterpn

/-! The function `interpn` on shared memory, from the flattening of its arguments on. -/

set_option autoImplicit false

namespace Interpn
open FloatOps

variable {F32 F64 X : Type}

theorem strided_reshape_positions {α : Type} (a : Strided α) (hl : a.shape.length = a.strides.length)
    (hc : a.cContiguous = true) :
    Strided.positionsFrom a.offset [a.shape.prod] (Strided.cStrides [a.shape.prod]) =
      Strided.positionsFrom a.offset a.shape a.strides := by
  have h1 := Strided.positions_cContiguous a hl hc
  have h2 := Strided.positions_cContiguous
    (⟨a.buffer, a.offset, [a.shape.prod], Strided.cStrides [a.shape.prod]⟩ : Strided α)
    (Strided.cStrides_length _).symm (Strided.cContiguous_of_cStrides _ rfl)
  simp only [List.prod_cons, List.prod_nil, mul_one] at h2
  exact h2.trans h1.symm

section
variable [FloatOps F32] [FloatOps F64]

/-- `ravel` gives a view of the same elements or an array in a new buffer. -/
theorem ravel_spec' (r : Ref) (h : Heap F32 F64 X) (hr : r.In h) :
    ∃ r' h', heapRavel r h = (.ok r', h') ∧ h <+: h' ∧ r'.In h' ∧ h'.load r' = (h.load r).ravel ∧
      (h'.load r').Good ∧
      (r.writeable = true → r'.writeable = true) ∧
      ((r'.buf = r.buf ∧ r'.positions = r.positions ∧ h' = h) ∨ r'.buf = h.length) := by
  obtain ⟨r', h', e, p, l, a, -⟩ := gives_ravel r h hr.1
  obtain ⟨g, -⟩ := MemArray.good_ravel (h.load r) hr.2
  have hwf : ∀ x : MemArray F32 F64 X, x.Good → x.WellFormed := by
    intro x hx
    cases x <;> exact hx.1
  refine ⟨r', h', e, p, ⟨l, by rw [a]; exact hwf _ g⟩, a, by rw [a]; exact g, ?_, ?_⟩
  · intro hw
    unfold heapRavel at e
    rw [pyM_read_bind] at e
    by_cases hc : (h.load r).cContiguous = true
    · rw [if_pos hc] at e
      cases e
      exact hw
    · rw [if_neg hc] at e
      cases e
      rfl
  · unfold heapRavel at e
    rw [pyM_read_bind] at e
    by_cases hc : (h.load r).cContiguous = true
    · rw [if_pos hc] at e
      refine .inl ?_
      have hpos : Strided.positionsFrom r.offset [(h.load r).shape.prod]
          (Strided.cStrides [(h.load r).shape.prod]) = r.positions := by
        have hwfr := hr.2
        cases hl : h.load r with
        | f32 a =>
          rw [hl] at hc hwfr
          obtain ⟨-, e2⟩ := positions_f32 hl
          have := strided_reshape_positions a hwfr.1 hc
          rw [e2] at this ⊢
          exact this
        | f64 a =>
          rw [hl] at hc hwfr
          obtain ⟨-, e2⟩ := positions_f64 hl
          have := strided_reshape_positions a hwfr.1 hc
          rw [e2] at this ⊢
          exact this
        | other a =>
          rw [hl] at hc hwfr
          obtain ⟨-, e2⟩ := load_other hl hr.1
          have := strided_reshape_positions a hwfr.1 hc
          rw [e2] at this ⊢
          exact this
      cases e
      exact ⟨rfl, hpos, rfl⟩
    · rw [if_neg hc] at e
      cases e
      exact .inr rfl

theorem grows_flat (r : Ref) :
    Grows (do heapAsContiguous (← heapRavel r) : PyM F32 F64 X Ref) :=
  (grows_ravel r).bind fun _ => grows_asContiguous _

/-- What has happened when the raw routine is called: either an exception was raised before, or `out`
has been chosen and flattened and all other arguments have been flattened. -/
theorem interpn_args (np : Numpy F32 F64 X) (nx : NumpyX X) (obs grids : List Ref) (vals : Ref)
    (out : Option Ref) (h : Heap F32 F64 X) (ho : ∀ o ∈ out, o.In h) (hobs : ∀ r ∈ obs, r.In h)
    (hgrids : ∀ r ∈ grids, r.In h) (hvals : vals.In h) :
    (∃ e, heapOutOr np nx out obs h = (.error e, h) ∧
      memOutOr np nx (out.map h.load) (obs.map h.load) = .error e) ∨
    ∃ o h1 o' h2 obs' h3 grids' h4 vals' h5,
      heapOutOr np nx out obs h = (.ok o, h1) ∧ heapRavel o h1 = (.ok o', h2) ∧
      PyM.each (fun x => do heapAsContiguous (← heapRavel x)) obs h2 = (.ok obs', h3) ∧
      PyM.each (fun x => do heapAsContiguous (← heapRavel x)) grids h3 = (.ok grids', h4) ∧
      (do heapAsContiguous (← heapRavel vals)) h4 = (.ok vals', h5) ∧
      h <+: h5 ∧ o'.In h5 ∧
      memOutOr np nx (out.map h.load) (obs.map h.load) = .ok (h1.load o) ∧
      Heap.load h5 o' = (h1.load o).ravel ∧ (h1.load o).shape = o.shape ∧
      obs'.map (Heap.load h5) = (obs.map h.load).map (fun a => a.ravel.asContiguous) ∧
      (∀ r ∈ obs', r.buf < h5.length) ∧
      grids'.map (Heap.load h5) = (grids.map h.load).map (fun a => a.ravel.asContiguous) ∧
      (∀ r ∈ grids', r.buf < h5.length ∧ (Heap.load h5 r).Good) ∧
      Heap.load h5 vals' = (h.load vals).ravel.asContiguous ∧ vals'.buf < h5.length ∧
      (Heap.load h5 vals').Good ∧
      ((out = some o ∧ (h.load o).contents.truth np nx = .ok true ∧
          ((o'.buf = o.buf ∧ o'.positions = o.positions) ∨ h.length ≤ o'.buf) ∧
          (o.writeable = true → o'.writeable = true)) ∨
        (h.length ≤ o'.buf ∧ o'.writeable = true ∧
          ∀ o' ∈ out, (h.load o').contents.truth np nx = .ok false)) ∧
      ((∀ r ∈ vals :: (obs ++ grids), ∀ o ∈ out, r.buf ≠ o.buf) →
        vals'.buf ≠ o'.buf ∧ (∀ r ∈ obs', r.buf ≠ o'.buf) ∧ (∀ r ∈ grids', r.buf ≠ o'.buf)) := by
  rcases heapOutOr_spec np nx obs out h ho with ⟨e, e1, e2⟩ | ⟨o, h1, e1, p1, i1, m1, c1⟩
  · exact .inl ⟨e, e1, e2⟩
  refine .inr ?_
  obtain ⟨o', h2, e2, p2, i2, a2, g2, w2, c2⟩ := ravel_spec' o h1 i1
  have p02 : h <+: h2 := p1.trans p2
  obtain ⟨obs', h3, e3, p3, l3, a3, b3⟩ := gives_each obs h2 fun r hr => ((hobs r hr).mono p02).1
  have p03 : h <+: h3 := p02.trans p3
  obtain ⟨grids', h4, e4, p4, l4, a4, b4⟩ := gives_each grids h3 fun r hr => ((hgrids r hr).mono p03).1
  have p04 : h <+: h4 := p03.trans p4
  obtain ⟨vals', h5, e5, p5, l5, a5, b5⟩ := gives_flat vals h4 ((hvals.mono p04).1)
  have p05 : h <+: h5 := p04.trans p5
  have p25 : h2 <+: h5 := (p3.trans p4).trans p5
  have lo2 := i2.1
  have le01 := p1.length_le
  have le12 := p2.length_le
  have le23 := p3.length_le
  have le34 := p4.length_le
  have le45 := p5.length_le
  have ao : Heap.load h5 o' = (h1.load o).ravel := by rw [load_of_prefix p25 lo2, a2]
  have aobs : obs'.map (Heap.load h5) = (obs.map h.load).map (fun a => a.ravel.asContiguous) := by
    rw [loads_of_prefix (p4.trans p5) l3, a3, loads_of_prefix p02 fun r hr => (hobs r hr).1]
  have agr : grids'.map (Heap.load h5) = (grids.map h.load).map (fun a => a.ravel.asContiguous) := by
    rw [loads_of_prefix p5 l4, a4, loads_of_prefix p03 fun r hr => (hgrids r hr).1]
  have av : Heap.load h5 vals' = (h.load vals).ravel.asContiguous := by
    rw [a5, load_of_prefix p04 hvals.1]
  have good : ∀ x : MemArray F32 F64 X, x.WellFormed → x.ravel.asContiguous.Good := by
    intro x hx
    obtain ⟨g, -⟩ := MemArray.good_ravel x hx
    rw [MemArray.asContiguous_good _ g]
    exact g
  refine ⟨o, h1, o', h2, obs', h3, grids', h4, vals', h5, e1, e2, e3, e4, e5, p05, i2.mono p25, m1, ao,
    load_shape _ _, aobs, fun r hr => by have := l3 r hr; omega, agr, fun r hr => ⟨by have := l4 r hr; omega, ?_⟩,
    av, l5, by rw [av]; exact good _ hvals.2, ?_, ?_⟩
  · have hm : Heap.load h5 r ∈ grids'.map (Heap.load h5) := List.mem_map_of_mem hr
    rw [agr, List.map_map] at hm
    obtain ⟨g, hg, hge⟩ := List.mem_map.1 hm
    rw [← hge]
    exact good _ (hgrids g hg).2
  · rcases c1 with ⟨ho1, hh1, ht⟩ | ⟨hb, hw, ht⟩
    · refine .inl ⟨ho1, ht, ?_, w2⟩
      rcases c2 with ⟨b, q, -⟩ | b
      · exact .inl ⟨b, q⟩
      · exact .inr (by omega)
    · refine .inr ⟨?_, w2 hw, ht⟩
      rcases c2 with ⟨b, q, -⟩ | b <;> omega
  · intro sep
    -- buffers of the flattened arguments: those of the arguments, or created after `o'`
    have hlt : o'.buf < h2.length := lo2
    have hcase : ∀ b : Nat, b < h.length → (∀ o ∈ out, b ≠ o.buf) → b ≠ o'.buf := by
      intro b hb hbo
      rcases c1 with ⟨ho1, hh1, ht⟩ | ⟨hb1, hw, ht⟩
      · rcases c2 with ⟨b2, q, -⟩ | b2
        · rw [b2]
          exact hbo o ho1
        · omega
      · rcases c2 with ⟨b2, q, -⟩ | b2 <;> omega
    refine ⟨?_, fun r hr => ?_, fun r hr => ?_⟩
    · rcases b5 with b | b
      · rw [b]
        exact hcase _ hvals.1 (sep vals (by simp))
      · omega
    · rcases b3 r hr with ⟨r0, hr0, b⟩ | b
      · rw [b]
        exact hcase _ (hobs r0 hr0).1 (sep r0 (by simp [hr0]))
      · omega
    · rcases b4 r hr with ⟨r0, hr0, b⟩ | b
      · rw [b]
        exact hcase _ (hgrids r0 hr0).1 (sep r0 (by simp [hr0]))
      · omega

/-- Nothing but elements of `out` is written, whether the call returns or raises. -/
theorem interpn_frame (B : Borrow) (np : Numpy F32 F64 X) (nx : NumpyX X) (fma : Bool)
    (obs grids : List Ref) (vals : Ref) (method : String) (out : Option Ref)
    (lin assumeRegular checkB : Bool) (atol : F64) (h : Heap F32 F64 X) (ho : ∀ o ∈ out, o.In h) :
    Heap.SameExcept out.toList h
      (heapInterpn B np nx fma obs grids vals method out lin assumeRegular checkB atol h).2 := by
  unfold heapInterpn
  rcases heapOutOr_spec np nx obs out h ho with ⟨e, e1, e2⟩ | ⟨o, h1, e1, p1, i1, m1, c1⟩
  · rw [pyM_bind_error e1]
    exact sameExcept_of_prefix List.prefix_rfl
  rw [pyM_bind_ok e1]
  obtain ⟨o', h2, e2, p2, i2, a2, g2, w2, c2⟩ := ravel_spec' o h1 i1
  simp only
  rw [pyM_bind_ok e2]
  have G3 := grows_each (grows_flat (F32 := F32) (F64 := F64) (X := X)) obs h2
  rw [pyM_bind]
  generalize PyM.each (fun x => do heapAsContiguous (← heapRavel x)) obs h2 = R3 at G3
  obtain ⟨r3, h3⟩ := R3
  have p03 : h <+: h3 := (p1.trans p2).trans G3
  cases r3 with
  | error e => exact sameExcept_of_prefix p03
  | ok obs' =>
  simp only
  have G4 := grows_each (grows_flat (F32 := F32) (F64 := F64) (X := X)) grids h3
  rw [pyM_bind]
  generalize PyM.each (fun x => do heapAsContiguous (← heapRavel x)) grids h3 = R4 at G4
  obtain ⟨r4, h4⟩ := R4
  have p04 : h <+: h4 := p03.trans G4
  cases r4 with
  | error e => exact sameExcept_of_prefix p04
  | ok grids' =>
  simp only
  have G5 := grows_flat (F32 := F32) (F64 := F64) (X := X) vals h4
  rw [pyM_bind]
  generalize (do heapAsContiguous (← heapRavel vals) : PyM F32 F64 X Ref) h4 = R5 at G5
  obtain ⟨r5, h5⟩ := R5
  have p05 : h <+: h5 := p04.trans G5
  cases r5 with
  | error e => exact sameExcept_of_prefix p05
  | ok vals' =>
  simp only
  have p25 : h2 <+: h5 := (G3.trans G4).trans G5
  have io : o'.In h5 := i2.mono p25
  have move : ∀ h6, Heap.SameExcept [o'] h5 h6 → Heap.SameExcept out.toList h h6 := by
    intro h6 hs
    have le01 := p1.length_le
    by_cases hf : h.length ≤ o'.buf
    · exact hs.fresh p05 fun x hx => by simp at hx; rw [hx]; exact hf
    · rcases c1 with ⟨ho1, hh1, ht⟩ | ⟨hb1, hw, ht⟩
      · rcases c2 with ⟨b2, q, -⟩ | b2
        · refine (sameExcept_of_prefix p05).trans ?_
          intro b d hd
          obtain ⟨d', e', s'⟩ := hs b d hd
          refine ⟨d', e', s'.mono fun i ⟨x, hx, hb, hp⟩ => ?_⟩
          simp only [List.mem_singleton] at hx
          subst hx
          exact ⟨o, by simp [ho1], by rw [← b2]; exact hb, by rw [← q]; exact hp⟩
        · exact absurd (by omega) hf
      · refine absurd ?_ hf
        rcases c2 with ⟨b2, q, -⟩ | b2 <;> omega
  rw [pyM_read_bind]
  cases hv : h5.load vals' with
  | other a =>
    exact sameExcept_of_prefix p05
  | f64 a =>
    simp only
    rw [pyM_bind]
    rcases interpn64_frame B np nx fma obs' grids' vals' method o' lin assumeRegular checkB atol h5 io
      with ⟨e, h6, e6, p6⟩ | ⟨hs, -⟩
    · rw [e6]
      exact sameExcept_of_prefix (p05.trans p6)
    · have hs' := move _ hs
      generalize heapInterpn64 B np nx fma obs' grids' vals' method o' lin assumeRegular checkB atol h5
        = R at hs'
      obtain ⟨r, h6⟩ := R
      cases r <;> exact hs'
  | f32 a =>
    simp only
    rw [pyM_bind]
    rcases interpn32_frame B np nx fma obs' grids' vals' method o' lin assumeRegular checkB atol h5 io
      with ⟨e, h6, e6, p6⟩ | ⟨hs, -⟩
    · rw [e6]
      exact sameExcept_of_prefix (p05.trans p6)
    · have hs' := move _ hs
      generalize heapInterpn32 B np nx fma obs' grids' vals' method o' lin assumeRegular checkB atol h5
        = R at hs'
      obtain ⟨r, h6⟩ := R
      cases r <;> exact hs'

omit [FloatOps F32] [FloatOps F64] in
theorem load_reshape64 {h : Heap F32 F64 X} {r : Ref} {a : Strided F64} (e : h.load r = .f64 a)
    (shape : List Nat) : h.load (r.reshape shape) = .f64 (a.reshape shape) := by
  obtain ⟨e1, e2⟩ := positions_f64 e
  unfold Heap.load Ref.reshape
  simp only [e1]
  rw [e2]
  rfl

omit [FloatOps F32] [FloatOps F64] in
theorem load_reshape32 {h : Heap F32 F64 X} {r : Ref} {a : Strided F32} (e : h.load r = .f32 a)
    (shape : List Nat) : h.load (r.reshape shape) = .f32 (a.reshape shape) := by
  obtain ⟨e1, e2⟩ := positions_f32 e
  unfold Heap.load Ref.reshape
  simp only [e1]
  rw [e2]
  rfl

/-- On memory where `out` is writeable and in a buffer of its own, `interpn` returns what the model
without shared memory says; the array returned is a view of `out` or lies in a new buffer. -/
theorem interpn_refines (B : Borrow) (hB : B.Lawful) (np : Numpy F32 F64 X) (nx : NumpyX X) (fma : Bool)
    (obs grids : List Ref) (vals : Ref) (method : String) (out : Option Ref)
    (lin assumeRegular checkB : Bool) (atol : F64) (h : Heap F32 F64 X) (ho : ∀ o ∈ out, o.In h)
    (hobs : ∀ r ∈ obs, r.In h) (hgrids : ∀ r ∈ grids, r.In h) (hvals : vals.In h)
    (hw : ∀ o ∈ out, o.writeable = true)
    (sep : ∀ r ∈ vals :: (obs ++ grids), ∀ o ∈ out, r.buf ≠ o.buf) :
    (heapInterpn B np nx fma obs grids vals method out lin assumeRegular checkB atol h).1.map
        (fun p => (p.1, Heap.load
          (heapInterpn B np nx fma obs grids vals method out lin assumeRegular checkB atol h).2 p.2)) =
      memInterpn np nx fma (obs.map h.load) (grids.map h.load) (h.load vals) method (out.map h.load) lin
        assumeRegular checkB atol ∧
    ∀ p, (heapInterpn B np nx fma obs grids vals method out lin assumeRegular checkB atol h).1 = .ok p →
      h.length ≤ p.2.buf ∨ ∃ o ∈ out, p.2.buf = o.buf := by
  unfold heapInterpn memInterpn
  rcases interpn_args np nx obs grids vals out h ho hobs hgrids hvals with ⟨e, e1, e2⟩ |
    ⟨o, h1, o', h2, obs', h3, grids', h4, vals', h5, e1, e2, e3, e4, e5, p05, io, m1, ao, so, aobs, lobs,
      agr, lgr, av, lv, gv, c, s⟩
  · rw [pyM_bind_error e1, e2]
    exact ⟨rfl, fun p hp => by cases hp⟩
  obtain ⟨s1, s2, s3⟩ := s sep
  have wo' : o'.writeable = true := by
    rcases c with ⟨ho1, -, -, hw'⟩ | ⟨-, hw', -⟩
    · exact hw' (hw o ho1)
    · exact hw'
  have hbuf : ∀ sh, h.length ≤ (o'.reshape sh).buf ∨ ∃ o ∈ out, (o'.reshape sh).buf = o.buf := by
    intro sh
    rcases c with ⟨ho1, -, hb, -⟩ | ⟨hb, -, -⟩
    · rcases hb with ⟨hb, -⟩ | hb
      · exact .inr ⟨o, ho1, hb⟩
      · exact .inl hb
    · exact .inl hb
  rw [pyM_bind_ok e1]
  simp only
  rw [pyM_bind_ok e2, pyM_bind_ok e3, pyM_bind_ok e4, pyM_bind_ok e5, m1, ok_bind', ← av, ← agr, ← aobs,
    ← ao, so, pyM_read_bind]
  cases hv : Heap.load h5 vals' with
  | other a => exact ⟨rfl, fun p hp => by cases hp⟩
  | f64 v =>
    have gv' : v.Good := by rw [hv] at gv; exact gv
    have R := interpn64_refines B hB np nx fma obs' grids' vals' method o' lin assumeRegular checkB atol
      h5 lobs (fun r hr => (lgr r hr).1) (fun r hr => (lgr r hr).2) lv hv gv' io.1 wo' s1 s2 s3
    simp only
    rw [pyM_bind]
    generalize heapInterpn64 B np nx fma obs' grids' vals' method o' lin assumeRegular checkB atol h5
      = Q at R
    obtain ⟨q, h6⟩ := Q
    cases hm : memInterpn64 np nx fma (obs'.map (Heap.load h5)) (grids'.map (Heap.load h5)) v method
      (Heap.load h5 o') lin assumeRegular checkB atol with
    | error e =>
      rw [hm] at R
      cases q with
      | error e' => cases R; exact ⟨rfl, fun p hp => by cases hp⟩
      | ok u => cases R
    | ok cr =>
      obtain ⟨call, r⟩ := cr
      rw [hm] at R
      cases q with
      | error e' => cases R
      | ok u =>
        have R' : (u, Heap.load h6 o') = (call, MemArray.f64 r) := Except.ok.inj R
        obtain ⟨R1, R2⟩ := Prod.mk.inj R'
        subst R1
        refine ⟨?_, fun p hp => ?_⟩
        · change Except.ok (u, Heap.load h6 (o'.reshape o.shape)) = _
          rw [load_reshape64 R2]
          rfl
        · cases hp
          exact hbuf _
  | f32 v =>
    have gv' : v.Good := by rw [hv] at gv; exact gv
    have R := interpn32_refines B hB np nx fma obs' grids' vals' method o' lin assumeRegular checkB atol
      h5 lobs (fun r hr => (lgr r hr).1) (fun r hr => (lgr r hr).2) lv hv gv' io.1 wo' s1 s2 s3
    simp only
    rw [pyM_bind]
    generalize heapInterpn32 B np nx fma obs' grids' vals' method o' lin assumeRegular checkB atol h5
      = Q at R
    obtain ⟨q, h6⟩ := Q
    cases hm : memInterpn32 np nx fma (obs'.map (Heap.load h5)) (grids'.map (Heap.load h5)) v method
      (Heap.load h5 o') lin assumeRegular checkB atol with
    | error e =>
      rw [hm] at R
      cases q with
      | error e' => cases R; exact ⟨rfl, fun p hp => by cases hp⟩
      | ok u => cases R
    | ok cr =>
      obtain ⟨call, r⟩ := cr
      rw [hm] at R
      cases q with
      | error e' => cases R
      | ok u =>
        have R' : (u, Heap.load h6 o') = (call, MemArray.f32 r) := Except.ok.inj R
        obtain ⟨R1, R2⟩ := Prod.mk.inj R'
        subst R1
        refine ⟨?_, fun p hp => ?_⟩
        · change Except.ok (u, Heap.load h6 (o'.reshape o.shape)) = _
          rw [load_reshape32 R2]
          rfl
        · cases hp
          exact hbuf _

end

end Interpn
