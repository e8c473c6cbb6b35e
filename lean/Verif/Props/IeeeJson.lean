import Verif.Props.PythonClasses
import Verif.Spec.IeeeNumpy
import Verif.Lemmas.IeeeExamples
import Mathlib.Data.Rat.Encodable
import Mathlib.Logic.Equiv.List

/-! C62 in IEEE 754 arithmetic: float32 survives the conversion to float64 and back, so dumping and
loading loses nothing if JSON text keeps float64. -/

set_option autoImplicit false

namespace Interpn
open Ieee

/-- Every `f32` number is an `f64` number. -/
theorem Format.Representable.widen {q : ℚ} (h : Format.binary32.Representable q) :
    Format.binary64.Representable q := by
  obtain ⟨m, e, h1, h2, h3, h4⟩ := h
  refine ⟨m, e, h1.trans_le ?_, le_trans ?_ h2, h3.trans ?_, h4⟩
  · exact pow_le_pow_right₀ (by norm_num) (by decide)
  · decide
  · decide

namespace Ieee

theorem rnd_repr_eq {f : Format} {s : Bool} {q : ℚ} (hr : f.Representable q)
    (hs : q ≠ 0 → s = decide (q < 0)) : rnd f s q = fin s q hr hs := by
  unfold rnd
  have e := f.roundQ_repr hr
  rw [dif_pos (by rw [e]; exact hr.le_omega)]
  congr 1
  split
  · rfl
  · next h => exact (hs h).symm

end Ieee

/-- C62: `f32` to `f64` and back gives the same datum, for numbers of either sign of zero, infinities
and NaN. -/
theorem C62_f32_round_trip (x : F32) :
    convert Format.binary32 (convert Format.binary64 x) = x := by
  cases x with
  | fin s q hr hs =>
    show convert _ (rnd _ s q) = _
    rw [rnd_repr_eq hr.widen hs]
    exact rnd_repr_eq hr hs
  | inf s => rfl
  | nan => rfl

/-- C62: the conversion to `f64` keeps the value. -/
theorem C62_f32_widen (x : F32) :
    val (convert Format.binary64 x) = val x ∧ (Ieee.Finite (convert Format.binary64 x) ↔ Ieee.Finite x) := by
  cases x with
  | fin s q hr hs =>
    have e : convert Format.binary64 (fin s q hr hs) = fin s q hr.widen hs := rnd_repr_eq hr.widen hs
    rw [e]
    exact ⟨rfl, Iff.rfl⟩
  | inf s => exact ⟨rfl, Iff.rfl⟩
  | nan => exact ⟨rfl, Iff.rfl⟩

/-- C62 in IEEE 754 arithmetic, regular grids. -/
theorem C62_regular_ieee (js : Json F64) (hjs : ∀ l, js.loads (js.dumps l) = some l) (kind : ClassKind)
    (dims : List Int) (starts steps vals : Arr F32 F64) (m : RegularObj F32 F64)
    (hm : RegularObj.construct kind dims starts steps vals = .ok m) :
    (m.dump ieeeNumpy js).load ieeeNumpy js = .ok m :=
  C62_regular ieeeNumpy js ⟨hjs, C62_f32_round_trip⟩ kind dims starts steps vals m hm

/-- C62 in IEEE 754 arithmetic, rectilinear grids. -/
theorem C62_rectilinear_ieee (js : Json F64) (hjs : ∀ l, js.loads (js.dumps l) = some l)
    (kind : ClassKind) (grids : List (Arr F32 F64)) (vals : Arr F32 F64) (m : RectilinearObj F32 F64)
    (hm : RectilinearObj.construct kind grids vals = .ok m) :
    (m.dump ieeeNumpy js).load ieeeNumpy js = .ok m :=
  C62_rectilinear ieeeNumpy js ⟨hjs, C62_f32_round_trip⟩ kind grids vals m hm

/-! #### Concrete cases -/

/-- A datum as sign and number, for the example below. -/
private def code : F64 → Option (Bool × Option ℚ)
  | fin s q _ _ => some (s, some q)
  | inf s => some (s, none)
  | nan => none

private theorem code_injective : Function.Injective code := by
  intro a b h
  cases a <;> cases b <;> simp_all [code]

/-- There are lossless texts for lists of `f64`. -/
example : ∃ js : Json F64, ∀ l, js.loads (js.dumps l) = some l := by
  classical
  have hc : Countable F64 := code_injective.countable
  obtain ⟨g, hg⟩ := exists_injective_nat (List F64)
  have hinj : Function.Injective fun l : List F64 => String.ofList (List.replicate (g l) 'x') := by
    intro a b h
    have := congrArg String.length h
    simpa using hg (by simpa using this)
  exact ⟨⟨_, Function.partialInv _⟩, fun l => Function.partialInv_left hinj l⟩

/-- A float32 object that `construct` accepts, with a NaN, an infinity and a negative zero. -/
example : RectilinearObj.construct (F32 := F32) (F64 := F64) .multilinear
    [.f32 [q32 0, q32 (1 / 10), q32 4], .f32 [q32 1, q32 3]]
    (.f32 [.nan, .inf true, q32 (1 / 3), q32 1, q32 2, .neg (q32 0)]) =
    .ok ⟨.multilinear, [.f32 [q32 0, q32 (1 / 10), q32 4], .f32 [q32 1, q32 3]],
      .f32 [.nan, .inf true, q32 (1 / 3), q32 1, q32 2, .neg (q32 0)]⟩ := by decide +kernel

example : RegularObj.construct (F32 := F32) (F64 := F64) .nearest [2, 2] (.f32 [q32 0, q32 (1 / 10)])
    (.f32 [q32 1, q32 3]) (.f32 [.nan, .inf true, q32 (1 / 3), .neg (q32 0)]) =
    .ok ⟨.nearest, [2, 2], .f32 [q32 0, q32 (1 / 10)], .f32 [q32 1, q32 3],
      .f32 [.nan, .inf true, q32 (1 / 3), .neg (q32 0)]⟩ := by decide +kernel

/-- In the other direction the conversion rounds: 0.1 does not survive. -/
example : convert Format.binary64 (convert Format.binary32 (q64 (1 / 10))) ≠ q64 (1 / 10) := by
  decide +kernel

end Interpn
