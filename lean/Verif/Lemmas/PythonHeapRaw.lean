import Verif.Lemmas.PythonHeap

/-! The raw routines of the Python interface on shared memory. -/

set_option autoImplicit false

namespace Interpn
open FloatOps

variable {F32 F64 X : Type} [FloatOps F32] [FloatOps F64]

/-- What the raw routine computes before it writes: the array `out` and the outcome of the Rust
function. -/
def planRegular64 (B : Borrow) (fma : Bool) (method : String) (dims : List Nat) (h : Heap F32 F64 X)
    (starts steps vals : Ref) (lin : Bool) (obs : List Ref) (out : Ref) :
    Except PyExc (Strided F64 × (Res Unit × List F64)) := do
  let s ← (h.load starts).extract64
  let p ← (h.load steps).extract64
  let v ← (h.load vals).extract64
  let xs ← pyEach MemArray.extract64 (obs.map h.load)
  let o ← (h.load out).extract64
  if B.allowed (starts :: steps :: vals :: obs) out then
    let x ← unpackFrom 0 xs
    let s ← s.asSlice
    let p ← p.asSlice
    let v ← v.asSlice
    let r ← o.asSlice
    return (o, rustRegular fma method dims s p v lin x r)
  else .error B.exc

theorem rawRegular64_eq (B : Borrow) (fma : Bool) (method : String) (dims : List Nat)
    (h : Heap F32 F64 X) (starts steps vals : Ref) (lin : Bool) (obs : List Ref) (out : Ref) :
    heapRawRegular64 B fma method dims starts steps vals lin obs out h =
      match planRegular64 B fma method dims h starts steps vals lin obs out with
      | .ok (o, q) => (pyOfRes (q.1, ()), h.set out.buf (.f64 (o.write q.2).buffer))
      | .error e => (.error e, h) := by
  unfold heapRawRegular64 planRegular64
  simp only [pyM_bind, PyM.read, PyM.ofExcept, pyM_each_read, PyM.store]
  cases (h.load starts).extract64 with
  | error e => rfl
  | ok s =>
  dsimp only
  cases (h.load steps).extract64 with
  | error e => rfl
  | ok p =>
  dsimp only
  cases (h.load vals).extract64 with
  | error e => rfl
  | ok v =>
  dsimp only
  cases pyEach MemArray.extract64 (obs.map h.load) with
  | error e => rfl
  | ok xs =>
  dsimp only
  cases (h.load out).extract64 with
  | error e => rfl
  | ok o =>
  dsimp only
  cases B.allowed (starts :: steps :: vals :: obs) out with
  | false => rfl
  | true =>
  simp only [Bool.not_true, Bool.false_eq_true, if_false, if_true, ok_bind', pyM_bind, PyM.ofExcept, PyM.store]
  cases unpackFrom 0 xs with
  | error e => rfl
  | ok x =>
  dsimp only
  cases s.asSlice with
  | error e => rfl
  | ok s =>
  dsimp only
  cases p.asSlice with
  | error e => rfl
  | ok p =>
  dsimp only
  cases v.asSlice with
  | error e => rfl
  | ok v =>
  dsimp only
  cases o.asSlice with
  | error e => rfl
  | ok r => rfl

/-- What the raw routine computes before it writes: the array `out` and the outcome of the Rust
function. -/
def planRegular32 (B : Borrow) (fma : Bool) (method : String) (dims : List Nat) (h : Heap F32 F64 X)
    (starts steps vals : Ref) (lin : Bool) (obs : List Ref) (out : Ref) :
    Except PyExc (Strided F32 × (Res Unit × List F32)) := do
  let s ← (h.load starts).extract32
  let p ← (h.load steps).extract32
  let v ← (h.load vals).extract32
  let xs ← pyEach MemArray.extract32 (obs.map h.load)
  let o ← (h.load out).extract32
  if B.allowed (starts :: steps :: vals :: obs) out then
    let x ← unpackFrom 0 xs
    let s ← s.asSlice
    let p ← p.asSlice
    let v ← v.asSlice
    let r ← o.asSlice
    return (o, rustRegular fma method dims s p v lin x r)
  else .error B.exc

theorem rawRegular32_eq (B : Borrow) (fma : Bool) (method : String) (dims : List Nat)
    (h : Heap F32 F64 X) (starts steps vals : Ref) (lin : Bool) (obs : List Ref) (out : Ref) :
    heapRawRegular32 B fma method dims starts steps vals lin obs out h =
      match planRegular32 B fma method dims h starts steps vals lin obs out with
      | .ok (o, q) => (pyOfRes (q.1, ()), h.set out.buf (.f32 (o.write q.2).buffer))
      | .error e => (.error e, h) := by
  unfold heapRawRegular32 planRegular32
  simp only [pyM_bind, PyM.read, PyM.ofExcept, pyM_each_read, PyM.store]
  cases (h.load starts).extract32 with
  | error e => rfl
  | ok s =>
  dsimp only
  cases (h.load steps).extract32 with
  | error e => rfl
  | ok p =>
  dsimp only
  cases (h.load vals).extract32 with
  | error e => rfl
  | ok v =>
  dsimp only
  cases pyEach MemArray.extract32 (obs.map h.load) with
  | error e => rfl
  | ok xs =>
  dsimp only
  cases (h.load out).extract32 with
  | error e => rfl
  | ok o =>
  dsimp only
  cases B.allowed (starts :: steps :: vals :: obs) out with
  | false => rfl
  | true =>
  simp only [Bool.not_true, Bool.false_eq_true, if_false, if_true, ok_bind', pyM_bind, PyM.ofExcept, PyM.store]
  cases unpackFrom 0 xs with
  | error e => rfl
  | ok x =>
  dsimp only
  cases s.asSlice with
  | error e => rfl
  | ok s =>
  dsimp only
  cases p.asSlice with
  | error e => rfl
  | ok p =>
  dsimp only
  cases v.asSlice with
  | error e => rfl
  | ok v =>
  dsimp only
  cases o.asSlice with
  | error e => rfl
  | ok r => rfl

/-- The same for rectilinear grids. -/
def planRectilinear64 (B : Borrow) (fma : Bool) (method : String) (h : Heap F32 F64 X)
    (grids : List Ref) (vals : Ref) (lin : Bool) (obs : List Ref) (out : Ref) :
    Except PyExc (Strided F64 × (Res Unit × List F64)) := do
  let gs ← pyEach MemArray.extract64 (grids.map h.load)
  let v ← (h.load vals).extract64
  let xs ← pyEach MemArray.extract64 (obs.map h.load)
  let o ← (h.load out).extract64
  if B.allowed (grids ++ vals :: obs) out then
    let g ← unpackFrom 0 gs
    let x ← unpackFrom 0 xs
    let v ← v.asSlice
    let r ← o.asSlice
    return (o, rustRectilinear fma method g v lin x r)
  else .error B.exc

theorem rawRectilinear64_eq (B : Borrow) (fma : Bool) (method : String) (h : Heap F32 F64 X)
    (grids : List Ref) (vals : Ref) (lin : Bool) (obs : List Ref) (out : Ref) :
    heapRawRectilinear64 B fma method grids vals lin obs out h =
      match planRectilinear64 B fma method h grids vals lin obs out with
      | .ok (o, q) => (pyOfRes (q.1, ()), h.set out.buf (.f64 (o.write q.2).buffer))
      | .error e => (.error e, h) := by
  unfold heapRawRectilinear64 planRectilinear64
  simp only [pyM_bind, PyM.read, PyM.ofExcept, pyM_each_read, PyM.store]
  cases pyEach MemArray.extract64 (grids.map h.load) with
  | error e => rfl
  | ok gs =>
  dsimp only
  cases (h.load vals).extract64 with
  | error e => rfl
  | ok v =>
  dsimp only
  cases pyEach MemArray.extract64 (obs.map h.load) with
  | error e => rfl
  | ok xs =>
  dsimp only
  cases (h.load out).extract64 with
  | error e => rfl
  | ok o =>
  dsimp only
  cases B.allowed (grids ++ vals :: obs) out with
  | false => rfl
  | true =>
  simp only [Bool.not_true, Bool.false_eq_true, if_false, if_true, ok_bind', pyM_bind, PyM.ofExcept, PyM.store]
  cases unpackFrom 0 gs with
  | error e => rfl
  | ok g =>
  dsimp only
  cases unpackFrom 0 xs with
  | error e => rfl
  | ok x =>
  dsimp only
  cases v.asSlice with
  | error e => rfl
  | ok v =>
  dsimp only
  cases o.asSlice with
  | error e => rfl
  | ok r => rfl

/-- The same for rectilinear grids. -/
def planRectilinear32 (B : Borrow) (fma : Bool) (method : String) (h : Heap F32 F64 X)
    (grids : List Ref) (vals : Ref) (lin : Bool) (obs : List Ref) (out : Ref) :
    Except PyExc (Strided F32 × (Res Unit × List F32)) := do
  let gs ← pyEach MemArray.extract32 (grids.map h.load)
  let v ← (h.load vals).extract32
  let xs ← pyEach MemArray.extract32 (obs.map h.load)
  let o ← (h.load out).extract32
  if B.allowed (grids ++ vals :: obs) out then
    let g ← unpackFrom 0 gs
    let x ← unpackFrom 0 xs
    let v ← v.asSlice
    let r ← o.asSlice
    return (o, rustRectilinear fma method g v lin x r)
  else .error B.exc

theorem rawRectilinear32_eq (B : Borrow) (fma : Bool) (method : String) (h : Heap F32 F64 X)
    (grids : List Ref) (vals : Ref) (lin : Bool) (obs : List Ref) (out : Ref) :
    heapRawRectilinear32 B fma method grids vals lin obs out h =
      match planRectilinear32 B fma method h grids vals lin obs out with
      | .ok (o, q) => (pyOfRes (q.1, ()), h.set out.buf (.f32 (o.write q.2).buffer))
      | .error e => (.error e, h) := by
  unfold heapRawRectilinear32 planRectilinear32
  simp only [pyM_bind, PyM.read, PyM.ofExcept, pyM_each_read, PyM.store]
  cases pyEach MemArray.extract32 (grids.map h.load) with
  | error e => rfl
  | ok gs =>
  dsimp only
  cases (h.load vals).extract32 with
  | error e => rfl
  | ok v =>
  dsimp only
  cases pyEach MemArray.extract32 (obs.map h.load) with
  | error e => rfl
  | ok xs =>
  dsimp only
  cases (h.load out).extract32 with
  | error e => rfl
  | ok o =>
  dsimp only
  cases B.allowed (grids ++ vals :: obs) out with
  | false => rfl
  | true =>
  simp only [Bool.not_true, Bool.false_eq_true, if_false, if_true, ok_bind', pyM_bind, PyM.ofExcept, PyM.store]
  cases unpackFrom 0 gs with
  | error e => rfl
  | ok g =>
  dsimp only
  cases unpackFrom 0 xs with
  | error e => rfl
  | ok x =>
  dsimp only
  cases v.asSlice with
  | error e => rfl
  | ok v =>
  dsimp only
  cases o.asSlice with
  | error e => rfl
  | ok r => rfl

/-! #### The Rust functions -/

section
variable {T : Type} [FloatOps T]

theorem rustRegular_length (fma : Bool) (method : String) (dims : List Nat) (starts steps vals : List T)
    (lin : Bool) (obs : List (List T)) (out : List T) :
    (rustRegular fma method dims starts steps vals lin obs out).2.length = out.length := by
  unfold rustRegular
  split
  · exact multilinearRegularInterpn_length ..
  · split
    · exact nearestRegularInterpn_length ..
    · exact multicubicRegularInterpn_length ..

theorem rustRectilinear_length (fma : Bool) (method : String) (grids : List (List T)) (vals : List T)
    (lin : Bool) (obs : List (List T)) (out : List T) :
    (rustRectilinear fma method grids vals lin obs out).2.length = out.length := by
  unfold rustRectilinear
  split
  · exact multilinearRectilinearInterpn_length ..
  · split
    · exact nearestRectilinearInterpn_length ..
    · exact multicubicRectilinearInterpn_length ..

theorem rawRegular_rust (fma : Bool) (method : String) (dims : List Nat) (starts steps vals : List T)
    (lin : Bool) (obs : List (List T)) (out : List T) (h : unpackOk obs = true) :
    rawRegular fma method dims starts steps vals lin obs out =
      pyOfRes (rustRegular fma method dims starts steps vals lin obs out) := by
  unfold rawRegular rustRegular
  simp only [h, Bool.not_true, Bool.false_eq_true, if_false]
  split
  · rfl
  · split <;> rfl

theorem rawRectilinear_rust (fma : Bool) (method : String) (grids : List (List T)) (vals : List T)
    (lin : Bool) (obs : List (List T)) (out : List T) (h : unpackOk obs = true)
    (hg : unpackOk grids = true) :
    rawRectilinear fma method grids vals lin obs out =
      pyOfRes (rustRectilinear fma method grids vals lin obs out) := by
  unfold rawRectilinear rustRectilinear
  simp only [h, hg, Bool.and_true, Bool.not_true, Bool.false_eq_true, if_false]
  split
  · rfl
  · split <;> rfl

omit [FloatOps T] in
theorem unpackFrom_length : ∀ (l : List (Strided T)) (i : Nat) (ss : List (List T)),
    unpackFrom i l = .ok ss → i ≤ 8 → i + ss.length ≤ 8
  | [], i, ss, h, hi => by
    cases h
    simpa using hi
  | a :: rest, i, ss, h, hi => by
    unfold unpackFrom at h
    obtain ⟨s, -, h⟩ := bind_ok h
    split at h
    · obtain ⟨ss', h1, h2⟩ := bind_ok h
      cases h2
      have := unpackFrom_length rest (i + 1) ss' h1 (by omega)
      simp
      omega
    · cases h

omit [FloatOps T] in
theorem unpackFrom_ok {l : List (Strided T)} {ss : List (List T)} (h : unpackFrom 0 l = .ok ss) :
    unpackOk ss = true := by
  have := unpackFrom_length l 0 ss h (by omega)
  simp only [unpackOk, decide_eq_true_eq]
  omega

end

/-! #### What is written -/

section
omit [FloatOps F32] [FloatOps F64]

theorem NpArray.SameExcept.refl (P : Nat → Prop) (d : NpArray F32 F64 X) : d.SameExcept P d := by
  cases d <;> exact ⟨rfl, fun _ _ => rfl⟩

theorem NpArray.SameExcept.trans {P : Nat → Prop} {a b c : NpArray F32 F64 X}
    (h1 : a.SameExcept P b) (h2 : b.SameExcept P c) : a.SameExcept P c := by
  cases a <;> cases b <;> cases c <;>
    first
      | exact h1.elim
      | exact h2.elim
      | exact ⟨h2.1.trans h1.1, fun i hi => (h2.2 i hi).trans (h1.2 i hi)⟩

theorem NpArray.SameExcept.mono {P Q : Nat → Prop} (hPQ : ∀ i, P i → Q i) {a b : NpArray F32 F64 X}
    (h : a.SameExcept P b) : a.SameExcept Q b := by
  cases a <;> cases b <;>
    first
      | exact h.elim
      | exact ⟨h.1, fun i hi => h.2 i fun hp => hi (hPQ i hp)⟩

theorem NpArray.SameExcept.eq {P : Nat → Prop} (hP : ∀ i, ¬ P i) {a b : NpArray F32 F64 X}
    (h : a.SameExcept P b) : b = a := by
  cases a <;> cases b <;>
    first
      | exact h.elim
      | exact congrArg _ (List.ext_getElem? fun i => h.2 i (hP i))

theorem sameExcept_of_prefix {outs : List Ref} {h h' : Heap F32 F64 X} (p : h <+: h') :
    Heap.SameExcept outs h h' := by
  intro b d hd
  have hb : b < h.length := (List.getElem?_eq_some_iff.1 hd).1
  exact ⟨d, by rw [prefix_get p hb, hd], NpArray.SameExcept.refl _ _⟩

theorem Heap.SameExcept.trans {outs : List Ref} {h h1 h2 : Heap F32 F64 X}
    (a : Heap.SameExcept outs h h1) (b : Heap.SameExcept outs h1 h2) : Heap.SameExcept outs h h2 := by
  intro i d hd
  obtain ⟨d1, e1, s1⟩ := a i d hd
  obtain ⟨d2, e2, s2⟩ := b i d1 e1
  exact ⟨d2, e2, s1.trans s2⟩

theorem Heap.SameExcept.mono {outs outs' : List Ref} (ho : ∀ o ∈ outs, o ∈ outs')
    {h h' : Heap F32 F64 X} (a : Heap.SameExcept outs h h') : Heap.SameExcept outs' h h' := by
  intro i d hd
  obtain ⟨d1, e1, s1⟩ := a i d hd
  exact ⟨d1, e1, s1.mono fun j ⟨o, h1, h2⟩ => ⟨o, ho o h1, h2⟩⟩

theorem sameExcept_length {outs : List Ref} {h h' : Heap F32 F64 X}
    (a : Heap.SameExcept outs h h') : h.length ≤ h'.length := by
  by_contra hc
  push Not at hc
  obtain ⟨d', e, -⟩ := a h'.length h[h'.length] (List.getElem?_eq_getElem hc)
  have := (List.getElem?_eq_some_iff.1 e).1
  omega

/-- A buffer without elements to be written to stays as it is. -/
theorem Heap.SameExcept.get {outs : List Ref} {h h' : Heap F32 F64 X}
    (a : Heap.SameExcept outs h h') {b : Nat} (hb : b < h.length) (ho : ∀ o ∈ outs, o.buf ≠ b) :
    h'[b]? = h[b]? := by
  obtain ⟨d', e, s⟩ := a b h[b] (List.getElem?_eq_getElem hb)
  rw [e, List.getElem?_eq_getElem hb, s.eq fun i ⟨o, h1, h2, _⟩ => ho o h1 h2]

/-- Writes to buffers that did not exist before change nothing. -/
theorem Heap.SameExcept.fresh {outs outs' : List Ref} {h h1 h2 : Heap F32 F64 X} (p : h <+: h1)
    (a : Heap.SameExcept outs h1 h2) (ho : ∀ o ∈ outs, h.length ≤ o.buf) :
    Heap.SameExcept outs' h h2 := by
  intro b d hd
  have hb : b < h.length := (List.getElem?_eq_some_iff.1 hd).1
  refine ⟨d, ?_, NpArray.SameExcept.refl _ _⟩
  rw [a.get (lt_of_lt_of_le hb p.length_le) fun o h => by have := ho o h; omega, prefix_get p hb, hd]

/-- An array without an element in common with those written to has the elements it had. -/
theorem Heap.SameExcept.contents {outs : List Ref} {h h' : Heap F32 F64 X}
    (a : Heap.SameExcept outs h h') {r : Ref} (hr : r.buf < h.length)
    (hd : ∀ o ∈ outs, r.buf = o.buf → ∀ p ∈ r.positions, p ∉ o.positions) :
    (h'.load r).contents = (h.load r).contents ∧ (h'.load r).shape = (h.load r).shape ∧
      (r.In h → r.In h') ∧ ((h.load r).Contiguous1 → (h'.load r).Contiguous1) ∧
      ((∀ b, h.load r ≠ .other b) → ∀ b, h'.load r ≠ .other b) := by
  obtain ⟨d', e, s⟩ := a r.buf h[r.buf] (List.getElem?_eq_getElem hr)
  have e0 := List.getElem?_eq_getElem hr
  have hlen := sameExcept_length a
  have key : ∀ p ∈ r.positions, 0 ≤ p →
      ¬ ∃ o ∈ outs, o.buf = r.buf ∧ ((p.toNat : Nat) : Int) ∈ o.positions := by
    rintro p hp h0 ⟨o, ho, hb, hm⟩
    rw [Int.toNat_of_nonneg h0] at hm
    exact hd o ho hb.symm p hp hm
  unfold Ref.In Heap.load
  rw [e, e0]
  cases hd0 : h[r.buf] with
  | f32 d =>
    rw [hd0] at s
    cases d' with
    | f32 d' =>
      obtain ⟨s1, s2⟩ := s
      refine ⟨?_, rfl, fun hh => ⟨by omega, hh.2.1, fun p hp => ?_⟩, id, fun _ _ hb => by cases hb⟩
      · change NpArray.f32 _ = NpArray.f32 _
        congr 1
        apply List.filterMap_congr
        intro p hp
        by_cases h0 : 0 ≤ p
        · rw [if_pos h0, if_pos h0]; exact s2 _ (key p hp h0)
        · rw [if_neg h0, if_neg h0]
      · have := hh.2.2 p hp
        change 0 ≤ p ∧ p < d'.length
        rw [s1]; exact this
    | f64 d' => exact s.elim
    | other d' => exact s.elim
  | f64 d =>
    rw [hd0] at s
    cases d' with
    | f64 d' =>
      obtain ⟨s1, s2⟩ := s
      refine ⟨?_, rfl, fun hh => ⟨by omega, hh.2.1, fun p hp => ?_⟩, id, fun _ _ hb => by cases hb⟩
      · change NpArray.f64 _ = NpArray.f64 _
        congr 1
        apply List.filterMap_congr
        intro p hp
        by_cases h0 : 0 ≤ p
        · rw [if_pos h0, if_pos h0]; exact s2 _ (key p hp h0)
        · rw [if_neg h0, if_neg h0]
      · have := hh.2.2 p hp
        change 0 ≤ p ∧ p < d'.length
        rw [s1]; exact this
    | f32 d' => exact s.elim
    | other d' => exact s.elim
  | other d =>
    rw [hd0] at s
    cases d' with
    | other d' =>
      obtain ⟨s1, s2⟩ := s
      refine ⟨?_, rfl, fun hh => ⟨by omega, hh.2.1, fun p hp => ?_⟩, id, fun hb => (hb _ rfl).elim⟩
      · change NpArray.other _ = NpArray.other _
        congr 1
        apply List.filterMap_congr
        intro p hp
        by_cases h0 : 0 ≤ p
        · rw [if_pos h0, if_pos h0]; exact s2 _ (key p hp h0)
        · rw [if_neg h0, if_neg h0]
      · have := hh.2.2 p hp
        change 0 ≤ p ∧ p < d'.length
        rw [s1]; exact this
    | f32 d' => exact s.elim
    | f64 d' => exact s.elim

theorem sameExcept_set64 {h : Heap F32 F64 X} {out : Ref} {o : Strided F64} (e : h.load out = .f64 o)
    (hw : o.WellFormed) (hc : o.cContiguous = true) {r : List F64} (hr : r.length = o.shape.prod) :
    Heap.SameExcept [out] h (h.set out.buf (.f64 (o.write r).buffer)) := by
  obtain ⟨e1, e2⟩ := positions_f64 e
  obtain ⟨-, -, -, w1, w2⟩ := Strided.write_spec o hw hc r hr
  intro b d hd
  have hb : b < h.length := (List.getElem?_eq_some_iff.1 hd).1
  by_cases hbo : out.buf = b
  · subst hbo
    rw [e1] at hd
    cases hd
    refine ⟨_, List.getElem?_set_self hb, w1, fun i hi => w2 i fun hp => hi ⟨out, by simp, rfl, ?_⟩⟩
    rw [e2] at hp
    exact hp
  · exact ⟨d, by rw [List.getElem?_set_ne hbo, hd], NpArray.SameExcept.refl _ _⟩

theorem sameExcept_set32 {h : Heap F32 F64 X} {out : Ref} {o : Strided F32} (e : h.load out = .f32 o)
    (hw : o.WellFormed) (hc : o.cContiguous = true) {r : List F32} (hr : r.length = o.shape.prod) :
    Heap.SameExcept [out] h (h.set out.buf (.f32 (o.write r).buffer)) := by
  obtain ⟨e1, e2⟩ := positions_f32 e
  obtain ⟨-, -, -, w1, w2⟩ := Strided.write_spec o hw hc r hr
  intro b d hd
  have hb : b < h.length := (List.getElem?_eq_some_iff.1 hd).1
  by_cases hbo : out.buf = b
  · subst hbo
    rw [e1] at hd
    cases hd
    refine ⟨_, List.getElem?_set_self hb, w1, fun i hi => w2 i fun hp => hi ⟨out, by simp, rfl, ?_⟩⟩
    rw [e2] at hp
    exact hp
  · exact ⟨d, by rw [List.getElem?_set_ne hbo, hd], NpArray.SameExcept.refl _ _⟩

theorem extract64_ok {a : MemArray F32 F64 X} {o : Strided F64} (h : a.extract64 = .ok o) :
    a = .f64 o ∧ o.shape.length = 1 := by
  cases a with
  | f32 a => cases h
  | other a => cases h
  | f64 a =>
    unfold MemArray.extract64 at h
    simp only at h
    split at h
    · rename_i hl
      cases h
      exact ⟨rfl, by simpa using hl⟩
    · cases h

theorem extract32_ok {a : MemArray F32 F64 X} {o : Strided F32} (h : a.extract32 = .ok o) :
    a = .f32 o ∧ o.shape.length = 1 := by
  cases a with
  | f64 a => cases h
  | other a => cases h
  | f32 a =>
    unfold MemArray.extract32 at h
    simp only at h
    split at h
    · rename_i hl
      cases h
      exact ⟨rfl, by simpa using hl⟩
    · cases h

theorem asSlice_length {α : Type} {o : Strided α} {r : List α} (h : o.asSlice = .ok r)
    (hw : o.WellFormed) : o.cContiguous = true ∧ r.length = o.shape.prod := by
  have hc : o.cContiguous = true := by
    by_contra hc
    unfold Strided.asSlice at h
    rw [if_neg hc] at h
    cases h
  rw [Strided.asSlice_ok o hw.1 hc] at h
  cases h
  exact ⟨hc, o.contents_length hw⟩

end

theorem planRegular64_ok {B : Borrow} {fma : Bool} {method : String} {dims : List Nat} {h : Heap F32 F64 X}
    {starts steps vals : Ref} {lin : Bool}
    {obs : List Ref} {out : Ref} {o : Strided F64} {q : Res Unit × List F64}
    (hp : planRegular64 B fma method dims h starts steps vals lin obs out = .ok (o, q)) (hw : (h.load out).WellFormed) :
    h.load out = .f64 o ∧ B.allowed (starts :: steps :: vals :: obs) out = true ∧ o.WellFormed ∧
      o.cContiguous = true ∧ q.2.length = o.shape.prod := by
  unfold planRegular64 at hp
  obtain ⟨s, -, hp⟩ := bind_ok hp
  obtain ⟨p, -, hp⟩ := bind_ok hp
  obtain ⟨v, -, hp⟩ := bind_ok hp
  obtain ⟨xs, -, hp⟩ := bind_ok hp
  obtain ⟨o', ho, hp⟩ := bind_ok hp
  split at hp
  · rename_i hall
    obtain ⟨x, -, hp⟩ := bind_ok hp
    obtain ⟨s', -, hp⟩ := bind_ok hp
    obtain ⟨p', -, hp⟩ := bind_ok hp
    obtain ⟨v', -, hp⟩ := bind_ok hp
    obtain ⟨r, hr, hp⟩ := bind_ok hp
    cases hp
    obtain ⟨e, -⟩ := extract64_ok ho
    have hw' : o.WellFormed := by rw [e] at hw; exact hw
    obtain ⟨hc, hl⟩ := asSlice_length hr hw'
    exact ⟨e, hall, hw', hc, by rw [rustRegular_length]; exact hl⟩
  · cases hp

/-- Either nothing is written, and then an exception is raised, or the borrow check has been passed and
only elements of `out` are written. -/
theorem rawRegular64_frame (B : Borrow) (fma : Bool) (method : String) (dims : List Nat) (h : Heap F32 F64 X)
    (starts steps vals : Ref) (lin : Bool) (obs : List Ref) (out : Ref) (hw : (h.load out).WellFormed) :
    (∃ e, heapRawRegular64 B fma method dims starts steps vals lin obs out h = (.error e, h)) ∨
    B.allowed (starts :: steps :: vals :: obs) out = true ∧
      Heap.SameExcept [out] h (heapRawRegular64 B fma method dims starts steps vals lin obs out h).2 := by
  rw [rawRegular64_eq]
  cases hp : planRegular64 B fma method dims h starts steps vals lin obs out with
  | error e => exact .inl ⟨e, rfl⟩
  | ok oq =>
    obtain ⟨o, q⟩ := oq
    obtain ⟨e, hall, hw', hc, hl⟩ := planRegular64_ok hp hw
    exact .inr ⟨hall, sameExcept_set64 e hw' hc hl⟩

theorem planRegular32_ok {B : Borrow} {fma : Bool} {method : String} {dims : List Nat} {h : Heap F32 F64 X}
    {starts steps vals : Ref} {lin : Bool}
    {obs : List Ref} {out : Ref} {o : Strided F32} {q : Res Unit × List F32}
    (hp : planRegular32 B fma method dims h starts steps vals lin obs out = .ok (o, q)) (hw : (h.load out).WellFormed) :
    h.load out = .f32 o ∧ B.allowed (starts :: steps :: vals :: obs) out = true ∧ o.WellFormed ∧
      o.cContiguous = true ∧ q.2.length = o.shape.prod := by
  unfold planRegular32 at hp
  obtain ⟨s, -, hp⟩ := bind_ok hp
  obtain ⟨p, -, hp⟩ := bind_ok hp
  obtain ⟨v, -, hp⟩ := bind_ok hp
  obtain ⟨xs, -, hp⟩ := bind_ok hp
  obtain ⟨o', ho, hp⟩ := bind_ok hp
  split at hp
  · rename_i hall
    obtain ⟨x, -, hp⟩ := bind_ok hp
    obtain ⟨s', -, hp⟩ := bind_ok hp
    obtain ⟨p', -, hp⟩ := bind_ok hp
    obtain ⟨v', -, hp⟩ := bind_ok hp
    obtain ⟨r, hr, hp⟩ := bind_ok hp
    cases hp
    obtain ⟨e, -⟩ := extract32_ok ho
    have hw' : o.WellFormed := by rw [e] at hw; exact hw
    obtain ⟨hc, hl⟩ := asSlice_length hr hw'
    exact ⟨e, hall, hw', hc, by rw [rustRegular_length]; exact hl⟩
  · cases hp

/-- Either nothing is written, and then an exception is raised, or the borrow check has been passed and
only elements of `out` are written. -/
theorem rawRegular32_frame (B : Borrow) (fma : Bool) (method : String) (dims : List Nat) (h : Heap F32 F64 X)
    (starts steps vals : Ref) (lin : Bool) (obs : List Ref) (out : Ref) (hw : (h.load out).WellFormed) :
    (∃ e, heapRawRegular32 B fma method dims starts steps vals lin obs out h = (.error e, h)) ∨
    B.allowed (starts :: steps :: vals :: obs) out = true ∧
      Heap.SameExcept [out] h (heapRawRegular32 B fma method dims starts steps vals lin obs out h).2 := by
  rw [rawRegular32_eq]
  cases hp : planRegular32 B fma method dims h starts steps vals lin obs out with
  | error e => exact .inl ⟨e, rfl⟩
  | ok oq =>
    obtain ⟨o, q⟩ := oq
    obtain ⟨e, hall, hw', hc, hl⟩ := planRegular32_ok hp hw
    exact .inr ⟨hall, sameExcept_set32 e hw' hc hl⟩

theorem planRectilinear64_ok {B : Borrow} {fma : Bool} {method : String} {h : Heap F32 F64 X}
    {grids : List Ref} {vals : Ref} {lin : Bool}
    {obs : List Ref} {out : Ref} {o : Strided F64} {q : Res Unit × List F64}
    (hp : planRectilinear64 B fma method h grids vals lin obs out = .ok (o, q)) (hw : (h.load out).WellFormed) :
    h.load out = .f64 o ∧ B.allowed (grids ++ vals :: obs) out = true ∧ o.WellFormed ∧
      o.cContiguous = true ∧ q.2.length = o.shape.prod := by
  unfold planRectilinear64 at hp
  obtain ⟨gs, -, hp⟩ := bind_ok hp
  obtain ⟨v, -, hp⟩ := bind_ok hp
  obtain ⟨xs, -, hp⟩ := bind_ok hp
  obtain ⟨o', ho, hp⟩ := bind_ok hp
  split at hp
  · rename_i hall
    obtain ⟨g, -, hp⟩ := bind_ok hp
    obtain ⟨x, -, hp⟩ := bind_ok hp
    obtain ⟨v', -, hp⟩ := bind_ok hp
    obtain ⟨r, hr, hp⟩ := bind_ok hp
    cases hp
    obtain ⟨e, -⟩ := extract64_ok ho
    have hw' : o.WellFormed := by rw [e] at hw; exact hw
    obtain ⟨hc, hl⟩ := asSlice_length hr hw'
    exact ⟨e, hall, hw', hc, by rw [rustRectilinear_length]; exact hl⟩
  · cases hp

/-- Either nothing is written, and then an exception is raised, or the borrow check has been passed and
only elements of `out` are written. -/
theorem rawRectilinear64_frame (B : Borrow) (fma : Bool) (method : String) (h : Heap F32 F64 X)
    (grids : List Ref) (vals : Ref) (lin : Bool) (obs : List Ref) (out : Ref) (hw : (h.load out).WellFormed) :
    (∃ e, heapRawRectilinear64 B fma method grids vals lin obs out h = (.error e, h)) ∨
    B.allowed (grids ++ vals :: obs) out = true ∧
      Heap.SameExcept [out] h (heapRawRectilinear64 B fma method grids vals lin obs out h).2 := by
  rw [rawRectilinear64_eq]
  cases hp : planRectilinear64 B fma method h grids vals lin obs out with
  | error e => exact .inl ⟨e, rfl⟩
  | ok oq =>
    obtain ⟨o, q⟩ := oq
    obtain ⟨e, hall, hw', hc, hl⟩ := planRectilinear64_ok hp hw
    exact .inr ⟨hall, sameExcept_set64 e hw' hc hl⟩

theorem planRectilinear32_ok {B : Borrow} {fma : Bool} {method : String} {h : Heap F32 F64 X}
    {grids : List Ref} {vals : Ref} {lin : Bool}
    {obs : List Ref} {out : Ref} {o : Strided F32} {q : Res Unit × List F32}
    (hp : planRectilinear32 B fma method h grids vals lin obs out = .ok (o, q)) (hw : (h.load out).WellFormed) :
    h.load out = .f32 o ∧ B.allowed (grids ++ vals :: obs) out = true ∧ o.WellFormed ∧
      o.cContiguous = true ∧ q.2.length = o.shape.prod := by
  unfold planRectilinear32 at hp
  obtain ⟨gs, -, hp⟩ := bind_ok hp
  obtain ⟨v, -, hp⟩ := bind_ok hp
  obtain ⟨xs, -, hp⟩ := bind_ok hp
  obtain ⟨o', ho, hp⟩ := bind_ok hp
  split at hp
  · rename_i hall
    obtain ⟨g, -, hp⟩ := bind_ok hp
    obtain ⟨x, -, hp⟩ := bind_ok hp
    obtain ⟨v', -, hp⟩ := bind_ok hp
    obtain ⟨r, hr, hp⟩ := bind_ok hp
    cases hp
    obtain ⟨e, -⟩ := extract32_ok ho
    have hw' : o.WellFormed := by rw [e] at hw; exact hw
    obtain ⟨hc, hl⟩ := asSlice_length hr hw'
    exact ⟨e, hall, hw', hc, by rw [rustRectilinear_length]; exact hl⟩
  · cases hp

/-- Either nothing is written, and then an exception is raised, or the borrow check has been passed and
only elements of `out` are written. -/
theorem rawRectilinear32_frame (B : Borrow) (fma : Bool) (method : String) (h : Heap F32 F64 X)
    (grids : List Ref) (vals : Ref) (lin : Bool) (obs : List Ref) (out : Ref) (hw : (h.load out).WellFormed) :
    (∃ e, heapRawRectilinear32 B fma method grids vals lin obs out h = (.error e, h)) ∨
    B.allowed (grids ++ vals :: obs) out = true ∧
      Heap.SameExcept [out] h (heapRawRectilinear32 B fma method grids vals lin obs out h).2 := by
  rw [rawRectilinear32_eq]
  cases hp : planRectilinear32 B fma method h grids vals lin obs out with
  | error e => exact .inl ⟨e, rfl⟩
  | ok oq =>
    obtain ⟨o, q⟩ := oq
    obtain ⟨e, hall, hw', hc, hl⟩ := planRectilinear32_ok hp hw
    exact .inr ⟨hall, sameExcept_set32 e hw' hc hl⟩

end Interpn
