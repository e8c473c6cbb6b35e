import Verif.Spec.Python
import Verif.Lemmas.Basic
import Verif.Lemmas.RatOps
import Verif.Props.Bounds

/-! C49, C50: the Python function `interpn`. -/

set_option autoImplicit false

namespace Interpn
open FloatOps

variable {T : Type} [FloatOps T]

theorem npDiff_length : ∀ g : List T, (npDiff g).length = g.length - 1
  | [] => rfl
  | [_] => rfl
  | a :: b :: rest => by
    rw [npDiff, List.length_cons, npDiff_length (b :: rest)]; simp

theorem npDiff_getElem : ∀ (g : List T) (i : Nat) (h : i + 1 < g.length),
    (npDiff g)[i]'(by rw [npDiff_length]; omega) = g[i + 1] -. g[i]
  | [], i, h => by simp at h
  | [_], i, h => by simp at h
  | a :: b :: rest, 0, h => rfl
  | a :: b :: rest, i + 1, h => by
    have := npDiff_getElem (b :: rest) i (by simpa using h)
    simpa [npDiff] using this

theorem uniform_iff (g : List T) (h2 : 2 ≤ g.length) (d0 : T) (ds : List T)
    (h : npDiff g = d0 :: ds) :
    ((d0 :: ds).all fun d => feq d d0) = true ↔ UniformSpacing g := by
  have hd0 : d0 = g[1] -. g[0] := by
    have := npDiff_getElem g 0 (by omega)
    simp only [h, List.getElem_cons_zero] at this
    exact this
  rw [← h, List.all_eq_true]
  constructor
  · intro hall i hi _
    rw [← hd0, ← npDiff_getElem g i hi]
    have := hall _ (List.getElem_mem (l := npDiff g) (n := i) (by rw [npDiff_length]; omega))
    simpa [feq] using this
  · intro hu d hd
    obtain ⟨i, hi, rfl⟩ := List.getElem_of_mem hd
    rw [npDiff_length] at hi
    rw [npDiff_getElem g i (by omega), hd0]
    have := hu i (by omega) (by omega)
    simpa [feq] using this

theorem checkRegularPy_false (grids : List (List T)) : checkRegularPy false grids = .ok false := by
  induction grids with
  | nil => rfl
  | cons g rest ih => rw [checkRegularPy]; exact ih

/-- The uniformity check: true exactly if every grid is uniformly spaced. -/
theorem checkRegularPy_spec (grids : List (List T)) (h2 : ∀ g ∈ grids, 2 ≤ g.length) :
    ∃ b, checkRegularPy true grids = .ok b ∧ (b = true ↔ ∀ g ∈ grids, UniformSpacing g) := by
  induction grids with
  | nil => exact ⟨true, rfl, by simp⟩
  | cons g rest ih =>
    obtain ⟨d0, ds, hd⟩ : ∃ d0 ds, npDiff g = d0 :: ds := by
      cases h : npDiff g with
      | nil =>
        have h1 := npDiff_length g
        have h3 := h2 g (by simp)
        rw [h] at h1; simp at h1; omega
      | cons a b => exact ⟨a, b, rfl⟩
    have hu := uniform_iff g (h2 g (by simp)) d0 ds hd
    rw [checkRegularPy, hd]
    simp only
    cases hb : (d0 :: ds).all fun d => feq d d0 with
    | false =>
      rw [checkRegularPy_false]
      refine ⟨false, rfl, ?_⟩
      rw [hb] at hu
      simp only [Bool.false_eq_true, List.mem_cons, forall_eq_or_imp, false_iff, false_iff] at hu ⊢
      tauto
    | true =>
      obtain ⟨b, h1, h2⟩ := ih (fun g hg => h2 g (by simp [hg]))
      refine ⟨b, h1, ?_⟩
      rw [hb] at hu
      rw [h2]
      simp only [true_iff] at hu
      simp [hu]

/-- Dimensions, starts and steps passed for a regular grid. -/
theorem pyRegularParams_spec (grids : List (List T)) (h2 : ∀ g ∈ grids, 2 ≤ g.length) :
    pyRegularParams grids = .ok (grids.map List.length, grids.map (fun g => g.getD 0 zero),
      grids.map (fun g => g.getD 1 zero -. g.getD 0 zero)) := by
  induction grids with
  | nil => rfl
  | cons g rest ih =>
    have := h2 g (by simp)
    match g, this with
    | a :: b :: r, _ =>
      rw [pyRegularParams, ih (fun g hg => h2 g (by simp [hg]))]
      rfl

theorem pyDispatch_name (dt : Dtype) (hdt : dt ≠ .other) (b : Bool) (m : PyMethod) :
    pyDispatch dt b m.name = .ok ⟨m.name, b, dt⟩ := by
  cases dt
  · cases b <;> cases m <;> rfl
  · cases b <;> cases m <;> rfl
  · exact absurd rfl hdt

theorem rawRegular_name (m : PyMethod) (fma : Bool) (dims : List Nat) (starts steps vals : List T)
    (lin : Bool) (obs : List (List T)) (out : List T) (h8 : obs.length ≤ 8) :
    rawRegular fma m.name dims starts steps vals lin obs out =
      pyOfRes (m.runRegular fma dims starts steps vals lin obs out) := by
  unfold rawRegular unpackOk
  cases m <;> simp [h8, PyMethod.name, PyMethod.runRegular]

theorem rawRectilinear_name (m : PyMethod) (fma : Bool) (grids : List (List T)) (vals : List T)
    (lin : Bool) (obs : List (List T)) (out : List T) (h8 : obs.length ≤ 8)
    (h8' : grids.length ≤ 8) :
    rawRectilinear fma m.name grids vals lin obs out =
      pyOfRes (m.runRectilinear fma grids vals lin obs out) := by
  unfold rawRectilinear unpackOk
  cases m <;> simp [h8, h8', PyMethod.name, PyMethod.runRectilinear]

omit [FloatOps T] in
theorem pyOfRes_bind {α : Type} (call : α) (r : Res Unit × List T) :
    (pyOfRes r >>= fun o => (pure (call, o) : Except PyExc _)) = pyResult call r := by
  obtain ⟨r1, r2⟩ := r
  cases r1 <;> rfl

theorem ok_bind' {ε α β : Type} (a : α) (f : α → Except ε β) : (Except.ok a >>= f) = f a := rfl
theorem error_bind' {ε α β : Type} (e : ε) (f : α → Except ε β) :
    ((Except.error e : Except ε α) >>= f) = .error e := rfl

/-- The regularity decision taken by `interpn`. -/
def pyIsRegular (assume : Bool) (grids : List (List T)) : Except PyExc Bool :=
  if assume then pure true else checkRegularPy true grids

theorem pyIsRegular_spec (assume : Bool) (grids : List (List T)) (h2 : ∀ g ∈ grids, 2 ≤ g.length) :
    ∃ b, pyIsRegular assume grids = .ok b ∧
      (b = true ↔ (assume = true ∨ ∀ g ∈ grids, UniformSpacing g)) := by
  obtain ⟨b, hb, hiff⟩ := checkRegularPy_spec grids h2
  unfold pyIsRegular
  cases assume
  · exact ⟨b, by simpa using hb, by simpa using hiff⟩
  · exact ⟨true, rfl, by simp⟩

/-- `interpn` on a regular grid after the preparations. -/
theorem pyInterpn_regular (fma : Bool) (dt : Dtype) (hdt : dt ≠ .other) (meth : String)
    (obs grids : List (List T)) (vals : List T) (out : Option (List T)) (out' : List T)
    (lin assume checkB : Bool) (atol : T) (ho : pyOut out obs = .ok out')
    (h2 : ∀ g ∈ grids, 2 ≤ g.length) (hr : pyIsRegular assume grids = .ok true) :
    pyInterpn fma dt obs grids vals meth out lin assume checkB atol =
      ((if checkB then pyCheckBounds true (grids.map List.length) (grids.map fun g => g.getD 0 zero)
          (grids.map fun g => g.getD 1 zero -. g.getD 0 zero) grids obs atol else .ok ()) >>= fun _ =>
        pyDispatch dt true meth >>= fun call =>
        rawRegular fma call.method (grids.map List.length) (grids.map fun g => g.getD 0 zero)
          (grids.map fun g => g.getD 1 zero -. g.getD 0 zero) vals lin obs out' >>= fun o =>
        .ok (call, o)) := by
  unfold pyInterpn
  rw [ho, ok_bind', if_neg hdt]
  unfold pyIsRegular at hr
  cases assume
  · simp only [Bool.false_eq_true, if_false] at hr ⊢
    rw [hr]
    simp only [ok_bind', if_true, pyRegularParams_spec grids h2]
    cases checkB <;> rfl
  · simp only [if_true]
    simp only [pure, Except.pure, ok_bind', if_true, pyRegularParams_spec grids h2]
    cases checkB <;> rfl

/-- `interpn` on a rectilinear grid after the preparations. -/
theorem pyInterpn_rectilinear (fma : Bool) (dt : Dtype) (hdt : dt ≠ .other) (meth : String)
    (obs grids : List (List T)) (vals : List T) (out : Option (List T)) (out' : List T)
    (lin assume checkB : Bool) (atol : T) (ho : pyOut out obs = .ok out')
    (hr : pyIsRegular assume grids = .ok false) :
    pyInterpn fma dt obs grids vals meth out lin assume checkB atol =
      ((if checkB then pyCheckBounds false [] [] [] grids obs atol else .ok ()) >>= fun _ =>
        pyDispatch dt false meth >>= fun call =>
        rawRectilinear fma call.method grids vals lin obs out' >>= fun o => .ok (call, o)) := by
  unfold pyInterpn
  rw [ho, ok_bind', if_neg hdt]
  unfold pyIsRegular at hr
  cases assume
  · simp only [Bool.false_eq_true, if_false] at hr ⊢
    rw [hr]
    simp only [ok_bind', Bool.false_eq_true, if_false]
    cases checkB <;> rfl
  · simp only [if_true] at hr; cases hr

/-- Without `check_bounds`, on at most 8 axes of at least two entries each: the regular routine of
the requested method is called, with sizes, first entries and first spacings, if the caller asked
for it or all grids are uniformly spaced. `out'` is the buffer used, see `C49_out`. -/
theorem C49_regular (fma : Bool) (dt : Dtype) (hdt : dt ≠ .other) (m : PyMethod)
    (obs grids : List (List T)) (vals : List T) (out : Option (List T)) (out' : List T)
    (lin assume : Bool) (atol : T) (ho : pyOut out obs = .ok out')
    (h8 : obs.length ≤ 8) (h2 : ∀ g ∈ grids, 2 ≤ g.length)
    (hreg : assume = true ∨ ∀ g ∈ grids, UniformSpacing g) :
    pyInterpn fma dt obs grids vals m.name out lin assume false atol =
      pyResult ⟨m.name, true, dt⟩
        (m.runRegular fma (grids.map List.length) (grids.map fun g => g.getD 0 zero)
          (grids.map fun g => g.getD 1 zero -. g.getD 0 zero) vals lin obs out') := by
  obtain ⟨b, hb, hiff⟩ := pyIsRegular_spec assume grids h2
  rw [hiff.2 hreg] at hb
  rw [pyInterpn_regular fma dt hdt m.name obs grids vals out out' lin assume false atol ho h2 hb]
  simp only [Bool.false_eq_true, if_false, ok_bind', pyDispatch_name dt hdt,
    rawRegular_name m fma _ _ _ vals lin _ _ h8]
  exact pyOfRes_bind _ _

/-- Otherwise the rectilinear routine of the requested method is called with the grids. -/
theorem C49_rectilinear (fma : Bool) (dt : Dtype) (hdt : dt ≠ .other) (m : PyMethod)
    (obs grids : List (List T)) (vals : List T) (out : Option (List T)) (out' : List T)
    (lin assume : Bool) (atol : T) (ho : pyOut out obs = .ok out')
    (h8 : obs.length ≤ 8) (h8' : grids.length ≤ 8) (h2 : ∀ g ∈ grids, 2 ≤ g.length)
    (hreg : ¬ (assume = true ∨ ∀ g ∈ grids, UniformSpacing g)) :
    pyInterpn fma dt obs grids vals m.name out lin assume false atol =
      pyResult ⟨m.name, false, dt⟩ (m.runRectilinear fma grids vals lin obs out') := by
  obtain ⟨b, hb, hiff⟩ := pyIsRegular_spec assume grids h2
  have hb' : b = false := by
    cases b
    · rfl
    · exact absurd (hiff.1 rfl) hreg
  subst hb'
  rw [pyInterpn_rectilinear fma dt hdt m.name obs grids vals out out' lin assume false atol ho hb]
  simp only [Bool.false_eq_true, if_false, ok_bind', pyDispatch_name dt hdt,
    rawRectilinear_name m fma _ vals lin _ _ h8 h8']
  exact pyOfRes_bind _ _

/-- The output buffer: a fresh zero array of the length of the first observation array if none is
given. A given array is used only if it has exactly one, non-zero element; a given array of two or
more elements raises, and an empty or single-zero array is replaced by a fresh one. -/
theorem C49_out (obs : List (List T)) (o : List T) :
    (obs.head? = some o → pyOut none obs = .ok (List.replicate o.length zero)) ∧
    (∀ a b rest, pyOut (some (a :: b :: rest)) obs =
      .error (.valueError "The truth value of an array is ambiguous")) ∧
    (∀ v, feq v zero = false → pyOut (some [v]) obs = .ok [v]) ∧
    (∀ v, feq v zero = true → pyOut (some [v]) obs = pyOut none obs) ∧
    pyOut (some []) obs = pyOut none obs ∧
    (obs = [] → pyOut (none : Option (List T)) obs = .error .indexError) := by
  refine ⟨fun h => ?_, fun a b r => rfl, fun v h => ?_, fun v h => ?_, rfl, fun h => ?_⟩
  · cases obs with
    | nil => simp at h
    | cons a l =>
      simp only [List.head?_cons, Option.some.injEq] at h
      subst h; rfl
  · simp [pyOut, h]
  · simp [pyOut, h]
  · subst h; rfl

/-- Unsupported element types and unknown methods raise. -/
theorem C49_unsupported (fma : Bool) (meth : String) (obs grids : List (List T)) (vals : List T)
    (out : Option (List T)) (out' : List T) (lin assume checkB : Bool) (atol : T)
    (ho : pyOut out obs = .ok out') (h2 : ∀ g ∈ grids, 2 ≤ g.length) :
    pyInterpn fma .other obs grids vals meth out lin assume checkB atol =
      .error (.assertionError "`interpn` defined only for float32 and float64 data") ∧
    (∀ dt, dt ≠ .other → meth ≠ "linear" → meth ≠ "nearest" → meth ≠ "cubic" →
      pyInterpn fma dt obs grids vals meth out lin assume false atol =
        .error (.valueError "Unsupported interpolation configuration")) := by
  constructor
  · unfold pyInterpn
    rw [ho, ok_bind', if_pos rfl]; rfl
  · intro dt hdt h1 h3 h4
    have hd : ∀ b, pyDispatch dt b meth =
        .error (.valueError "Unsupported interpolation configuration") := by
      intro b
      unfold pyDispatch
      split <;> first | rfl | contradiction
    obtain ⟨b, hb, _⟩ := pyIsRegular_spec assume grids h2
    cases b
    · rw [pyInterpn_rectilinear fma dt hdt meth obs grids vals out out' lin assume false atol ho hb]
      simp only [Bool.false_eq_true, if_false, ok_bind', hd, error_bind']
    · rw [pyInterpn_regular fma dt hdt meth obs grids vals out out' lin assume false atol ho h2 hb]
      simp only [Bool.false_eq_true, if_false, ok_bind', hd, error_bind']

/-- More than 8 observation arrays abort with a Rust panic for every method (the argument
unpacking indexes a fixed array of length 8). -/
theorem C49_too_many (fma : Bool) (dt : Dtype) (hdt : dt ≠ .other) (m : PyMethod)
    (obs grids : List (List T)) (vals : List T) (out : Option (List T)) (out' : List T)
    (lin assume checkB : Bool) (atol : T) (ho : pyOut out obs = .ok out')
    (h8 : 8 < obs.length) (h2 : ∀ g ∈ grids, 2 ≤ g.length) :
    pyInterpn fma dt obs grids vals m.name out lin assume checkB atol = .error .panicException := by
  obtain ⟨b, hb, _⟩ := pyIsRegular_spec assume grids h2
  have hn : ¬ obs.length ≤ 8 := by omega
  cases b
  · rw [pyInterpn_rectilinear fma dt hdt m.name obs grids vals out out' lin assume checkB atol ho hb]
    cases checkB
    · simp [ok_bind', error_bind', pyDispatch_name dt hdt, rawRectilinear, unpackOk, hn]
    · simp [error_bind', pyCheckBounds, unpackOk, hn]
  · rw [pyInterpn_regular fma dt hdt m.name obs grids vals out out' lin assume checkB atol ho h2 hb]
    cases checkB
    · simp [ok_bind', error_bind', pyDispatch_name dt hdt, rawRegular, unpackOk, hn]
    · simp [error_bind', pyCheckBounds, unpackOk, hn]

/-- So do more than eight grids that are treated as rectilinear, with and without a bounds check. -/
theorem C49_too_many_grids (fma : Bool) (dt : Dtype) (hdt : dt ≠ .other) (m : PyMethod)
    (obs grids : List (List T)) (vals : List T) (out : Option (List T)) (out' : List T)
    (lin checkB : Bool) (atol : T) (ho : pyOut out obs = .ok out')
    (h8 : 8 < grids.length) (h2 : ∀ g ∈ grids, 2 ≤ g.length) (hu : ∃ g ∈ grids, ¬ UniformSpacing g) :
    pyInterpn fma dt obs grids vals m.name out lin false checkB atol = .error .panicException := by
  obtain ⟨b, hb, hiff⟩ := pyIsRegular_spec false grids h2
  have hn : ¬ grids.length ≤ 8 := by omega
  cases b
  · rw [pyInterpn_rectilinear fma dt hdt m.name obs grids vals out out' lin false checkB atol ho hb]
    cases checkB
    · simp [ok_bind', error_bind', pyDispatch_name dt hdt, rawRectilinear, unpackOk, hn]
    · simp [error_bind', pyCheckBounds, unpackOk, hn]
  · obtain ⟨g, hg, hn⟩ := hu
    rcases hiff.1 rfl with h | h
    · cases h
    · exact absurd (h g hg) hn

/-- With `check_bounds=True` and any number of dimensions other than one, the call always raises
`AssertionError("Dimension mismatch")`, whatever the observations are. -/
theorem C50_multidim (fma : Bool) (dt : Dtype) (hdt : dt ≠ .other) (meth : String)
    (obs grids : List (List T)) (vals : List T) (out : Option (List T)) (out' : List T)
    (lin assume : Bool) (atol : T) (ho : pyOut out obs = .ok out')
    (h8 : obs.length ≤ 8) (h8' : grids.length ≤ 8) (h2 : ∀ g ∈ grids, 2 ≤ g.length)
    (hd : grids.length ≠ 1) :
    pyInterpn fma dt obs grids vals meth out lin assume true atol =
      .error (.assertionError "Dimension mismatch") := by
  obtain ⟨b, hb, _⟩ := pyIsRegular_spec assume grids h2
  cases b
  · rw [pyInterpn_rectilinear fma dt hdt meth obs grids vals out out' lin assume true atol ho hb]
    rw [if_pos rfl]
    unfold pyCheckBounds
    simp only [unpackOk, h8, h8', decide_true, Bool.and_true, Bool.not_true, Bool.false_eq_true,
      if_false]
    rw [C39_mismatch _ _ _ _ (.inr (.inl (by simp; omega)))]
    rfl
  · rw [pyInterpn_regular fma dt hdt meth obs grids vals out out' lin assume true atol ho h2 hb]
    rw [if_pos rfl]
    unfold pyCheckBounds
    simp only [unpackOk, h8, decide_true, Bool.not_true, Bool.false_eq_true,
      if_false, if_true]
    rw [C38_mismatch _ _ _ _ _ _ (.inr (by simp; omega))]
    rfl

/-- In one dimension on a grid that is not uniformly spaced, the call raises exactly when some
observation is at or beyond the tolerance; otherwise it goes on as without the check. -/
theorem C50_one_dim_rectilinear (fma : Bool) (dt : Dtype) (hdt : dt ≠ .other) (meth : String)
    (o g vals : List T) (out : Option (List T)) (out' : List T)
    (lin : Bool) (atol : T) (ho : pyOut out [o] = .ok out')
    (h2 : 2 ≤ g.length) (hg : g ≠ []) (hu : ¬ UniformSpacing g) :
    ((∃ x ∈ o, ((x -. g.head hg) <=. (-. atol)) = true ∨ (atol <=. (x -. g.getLast hg)) = true) →
      pyInterpn fma dt [o] [g] vals meth out lin false true atol =
        .error (.valueError "Observation points violate interpolator bounds")) ∧
    ((¬ ∃ x ∈ o, ((x -. g.head hg) <=. (-. atol)) = true ∨
        (atol <=. (x -. g.getLast hg)) = true) →
      pyInterpn fma dt [o] [g] vals meth out lin false true atol =
        pyInterpn fma dt [o] [g] vals meth out lin false false atol) := by
  obtain ⟨b, hb, hiff⟩ := pyIsRegular_spec false [g] (by simpa using h2)
  have hb' : b = false := by
    cases b
    · rfl
    · exact absurd (hiff.1 rfl) (by simpa using hu)
  subst hb'
  obtain ⟨flags, hf, hfi⟩ := C39_flags (N := 1) (fun _ => g) (fun _ => o) atol [false] rfl
    (fun _ => hg)
  simp only [List.ofFn_succ, List.ofFn_zero] at hf
  rw [pyInterpn_rectilinear fma dt hdt meth [o] [g] vals out out' lin false true atol ho hb,
    pyInterpn_rectilinear fma dt hdt meth [o] [g] vals out out' lin false false atol ho hb]
  have hc : pyCheckBounds false [] [] [] [g] [o] atol =
      if flags 0 then .error (.valueError "Observation points violate interpolator bounds")
      else .ok () := by
    unfold pyCheckBounds
    simp only [unpackOk, List.length_singleton, Nat.one_le_ofNat, decide_true, Bool.and_true,
      Bool.not_true, Bool.false_eq_true, if_false]
    rw [hf]
    simp only [pyOfRes, ok_bind']
    cases flags 0 <;> rfl
  rw [if_pos rfl, hc]
  constructor
  · intro h
    rw [if_pos ((hfi 0).2 h)]; rfl
  · intro h
    rw [if_neg (by rw [hfi 0]; exact h)]; rfl

/-- In one dimension on a regular grid. `m` is the float of the last node number. -/
theorem C50_one_dim_regular (fma : Bool) (dt : Dtype) (hdt : dt ≠ .other) (meth : String)
    (o g vals : List T) (out : Option (List T)) (out' : List T)
    (lin assume : Bool) (atol s p m : T) (ho : pyOut out [o] = .ok out')
    (h2 : 2 ≤ g.length) (hu : assume = true ∨ UniformSpacing g)
    (hs : s = g.getD 0 zero) (hp : p = g.getD 1 zero -. g.getD 0 zero)
    (hm : ofUsize (g.length - 1) = some m) :
    ((∃ x ∈ o, ((x -. fmin s (s +. p *. m)) <=. (-. atol)) = true ∨
        (atol <=. (x -. fmax s (s +. p *. m))) = true) →
      pyInterpn fma dt [o] [g] vals meth out lin assume true atol =
        .error (.valueError "Observation points violate interpolator bounds")) ∧
    ((¬ ∃ x ∈ o, ((x -. fmin s (s +. p *. m)) <=. (-. atol)) = true ∨
        (atol <=. (x -. fmax s (s +. p *. m))) = true) →
      pyInterpn fma dt [o] [g] vals meth out lin assume true atol =
        pyInterpn fma dt [o] [g] vals meth out lin assume false atol) := by
  subst hs hp
  have h2' : ∀ g' ∈ [g], 2 ≤ g'.length := by simpa using h2
  obtain ⟨b, hb, hiff⟩ := pyIsRegular_spec assume [g] h2'
  rw [hiff.2 (by simpa using hu)] at hb
  obtain ⟨flags, hf, hfi⟩ := C38_flags (N := 1) (fun _ => g.length) (fun _ => g.getD 0 zero)
    (fun _ => g.getD 1 zero -. g.getD 0 zero) (fun _ => o) atol [false] rfl
    (fun _ => by omega) (fun _ => m) (fun _ => hm)
  simp only [List.ofFn_succ, List.ofFn_zero] at hf
  rw [pyInterpn_regular fma dt hdt meth [o] [g] vals out out' lin assume true atol ho h2' hb,
    pyInterpn_regular fma dt hdt meth [o] [g] vals out out' lin assume false atol ho h2' hb]
  have hc : pyCheckBounds true [g.length] [g.getD 0 zero] [g.getD 1 zero -. g.getD 0 zero] [g] [o]
      atol = if flags 0 then .error (.valueError "Observation points violate interpolator bounds")
      else .ok () := by
    unfold pyCheckBounds
    simp only [unpackOk, List.length_singleton, Nat.one_le_ofNat, decide_true,
      Bool.not_true, Bool.false_eq_true, if_false, if_true]
    rw [hf]
    simp only [pyOfRes, ok_bind']
    cases flags 0 <;> rfl
  simp only [List.map_cons, List.map_nil]
  rw [if_pos trivial, hc]
  constructor
  · intro h
    rw [if_pos ((hfi 0).2 h)]; rfl
  · intro h
    rw [if_neg (by rw [hfi 0]; exact h)]; rfl

section Examples
attribute [local instance] ratOps

/-- A 2-D uniform grid: the linear regular routine is used; with `check_bounds` the same call
raises although all points are inside. A 1-D non-uniform grid with an observation outside. -/
example :
    pyInterpn false .float64 [[1/2], [1/2]] [[0, 1, 2], [0, 1]] [0, 0, 1, 2, 3, (5 : ℚ)] "linear"
      none true false false 0 = .ok (⟨"linear", true, .float64⟩, [3/4]) ∧
    pyInterpn false .float64 [[1/2], [1/2]] [[0, 1, 2], [0, 1]] [0, 0, 1, 2, 3, (5 : ℚ)] "linear"
      none true false true (1/10) = .error (.assertionError "Dimension mismatch") ∧
    pyInterpn false .float64 [[7/2]] [[0, 1, 3]] [0, 0, (1 : ℚ)] "linear"
      none true false true (1/10) =
        .error (.valueError "Observation points violate interpolator bounds") ∧
    pyInterpn false .float64 [[2]] [[0, 1, 3]] [0, 0, (1 : ℚ)] "linear"
      none true false true (1/10) = .ok (⟨"linear", false, .float64⟩, [1/2]) ∧
    pyInterpn false .float64 [[2]] [[0, 1, 3]] [0, 0, (1 : ℚ)] "quintic"
      none true false false (1/10) =
        .error (.valueError "Unsupported interpolation configuration") := by
  decide +kernel

end Examples

end Interpn
