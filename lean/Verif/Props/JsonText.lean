import Verif.Lemmas.JsonText
import Verif.Lemmas.IeeeExamples

/-! C130: the text of a dumped interpolator.  The arrays are written as decimal text by
`json.dumps(data.tolist())` and read by `np.array(json.loads(data))`
(`/repo/src/interpn/serialization.py` 29-43, 60-74); nothing is lost, down to the last bit, the sign of
zero, infinities and NaN.  Hypothesis `hjs` of C62 (the text keeps float64) is proved here. -/

set_option autoImplicit false

namespace Interpn
open JsonText

/-- C130: every list of `f64` is read as it was written. -/
theorem C130_list (P : Printer) (l : List F64) :
    (json P).loads ((json P).dumps l) = some l := by
  show loads (String.ofList (dumps P l)).toList = _
  rw [String.toList_ofList]
  exact loads_dumps P l

/-- C130: different data have different texts. -/
theorem C130_injective (P : Printer) : Function.Injective (json P).dumps := by
  intro a b h
  have h1 := C130_list P a
  rw [h, C130_list P b] at h1
  exact (Option.some.inj h1).symm

/-- C130: an interpolator on a regular grid, of either data type, is loaded as it was dumped. -/
theorem C130_regular (P : Printer) (kind : ClassKind) (dims : List Int)
    (starts steps vals : Arr F32 F64) (m : RegularObj F32 F64)
    (hm : RegularObj.construct kind dims starts steps vals = .ok m) :
    (m.dump ieeeNumpy (json P)).load ieeeNumpy (json P) = .ok m :=
  C62_regular_ieee (json P) (C130_list P) kind dims starts steps vals m hm

/-- C130: an interpolator on a rectilinear grid, of either data type, is loaded as it was dumped. -/
theorem C130_rectilinear (P : Printer) (kind : ClassKind) (grids : List (Arr F32 F64))
    (vals : Arr F32 F64) (m : RectilinearObj F32 F64)
    (hm : RectilinearObj.construct kind grids vals = .ok m) :
    (m.dump ieeeNumpy (json P)).load ieeeNumpy (json P) = .ok m :=
  C62_rectilinear_ieee (json P) (C130_list P) kind grids vals m hm

/-- C130: the text is printable ASCII without quotes and backslashes, so it stands unchanged inside the
JSON string of the outer document. -/
theorem C130_no_escapes (P : Printer) (l : List F64) :
    ∀ c ∈ ((json P).dumps l).toList, 32 ≤ c.toNat ∧ c.toNat < 127 ∧ c ≠ '"' ∧ c ≠ '\\' := by
  intro c hc
  have hc' : c ∈ dumps P l := by
    have : ((json P).dumps l).toList = dumps P l := String.toList_ofList
    rwa [this] at hc
  exact (show ∀ c ∈ plain, 32 ≤ c.toNat ∧ c.toNat < 127 ∧ c ≠ '"' ∧ c ≠ '\\' by decide) c
    (dumps_plain P l c hc')

/-- C130: shortest digits exist, so there is a printer as assumed. -/
theorem C130_printer_exists : Nonempty Printer := by
  classical
  have key : ∀ q : ℚ, ∃ p : List Nat × Int, Format.binary64.Representable q → 0 < q →
      IsShortest Format.binary64 q p.1 p.2 := by
    intro q
    by_cases h : Format.binary64.Representable q ∧ 0 < q
    · obtain ⟨ds, decpt, h1, -⟩ := exists_decimal Format.binary64 (D := 17) (by decide) h.1 h.2
      have hex : ∃ n : Nat, ∃ ds decpt, IsDecimal Format.binary64 q ds decpt ∧ ds.length = n :=
        ⟨_, ds, decpt, h1, rfl⟩
      obtain ⟨ds', decpt', h2, h3⟩ := Nat.find_spec hex
      refine ⟨(ds', decpt'), fun _ _ => ⟨h2, fun d e he => ?_⟩⟩
      show ds'.length ≤ d.length
      rw [h3]
      exact Nat.find_min' hex ⟨d, e, he, rfl⟩
    · exact ⟨([], 0), fun h1 h2 => absurd ⟨h1, h2⟩ h⟩
  choose g hg using key
  exact ⟨⟨fun q => (g q).1, fun q => (g q).2, hg⟩⟩

/-- C130: seventeen digits are enough for every float. -/
theorem C130_seventeen_digits (P : Printer) {q : ℚ} (hq : Format.binary64.Representable q)
    (h0 : 0 < q) : (P.digits q).length ≤ 17 := by
  obtain ⟨ds, decpt, h1, h2⟩ := exists_decimal Format.binary64 (D := 17) (by decide) hq h0
  exact ((P.correct q hq h0).shortest ds decpt h1).trans h2

/-- C130: a text by another writer, with any digits that are within half a unit roundoff (relative
error 2⁻⁵⁴), is read as the same float. -/
theorem C130_other_writer {q : ℚ} (hq : Format.binary64.Representable q) (h0 : 0 < q)
    (ds : List Nat) (decpt : Int) (hd : ∀ d ∈ ds, d < 10) (hh : ∃ d l, ds = d :: l ∧ d ≠ 0)
    (hclose : |decValue ds decpt - q| < 1 / 2 ^ 54 * q) :
    ∃ x : F64, loads ('[' :: (reprPos ds decpt ++ [']'])) = some [x] ∧ Ieee.Finite x ∧
      Ieee.val x = q := by
  have hr : Format.binary64.roundQ (decValue ds decpt) = q := by
    refine Format.roundQ_of_close _ hq (hclose.trans_le (le_of_eq ?_))
    rw [abs_of_pos h0]
    have : Format.binary64.unitRoundoff = 1 / 2 ^ 53 := rfl
    rw [this]; norm_num
  refine ⟨_, loads_single hd hh decpt, ?_⟩
  unfold Ieee.rnd
  rw [dif_pos (by rw [hr]; exact hq.le_omega)]
  exact ⟨trivial, hr⟩

/-- C130: a float32 array is read in float64 and rounded a second time; digits within a relative error
of 2⁻²⁶ (nine correct digits are) are still read as the same float32. -/
theorem C130_other_writer_f32 {q : ℚ} (hq : Format.binary32.Representable q) (h0 : 0 < q)
    (ds : List Nat) (decpt : Int) (hd : ∀ d ∈ ds, d < 10) (hh : ∃ d l, ds = d :: l ∧ d ≠ 0)
    (hclose : |decValue ds decpt - q| < 1 / 2 ^ 26 * q) :
    ∃ x : F64, loads ('[' :: (reprPos ds decpt ++ [']'])) = some [x] ∧
      Ieee.Finite (ieeeNumpy.f32of64 x) ∧ Ieee.val (ieeeNumpy.f32of64 x) = q := by
  have h1 := Format.roundQ_nearest Format.binary64 (decValue ds decpt) hq.widen
  rw [abs_sub_comm q] at h1
  set r := Format.binary64.roundQ (decValue ds decpt) with hr
  have h2 : |r - q| < 1 / 2 ^ 25 * q := by
    have := abs_sub_le r (decValue ds decpt) q
    linarith
  have h3 : Format.binary32.roundQ r = q := by
    refine Format.roundQ_of_close _ hq (h2.trans_le (le_of_eq ?_))
    rw [abs_of_pos h0]
    have : Format.binary32.unitRoundoff = 1 / 2 ^ 24 := rfl
    rw [this]; norm_num
  have h4 : |r| ≤ Format.binary64.omega := by
    have h5 : |r| ≤ 2 * q := by
      have := abs_sub_abs_le_abs_sub r q
      rw [abs_of_pos h0] at this
      linarith
    have h6 := hq.le_omega
    rw [abs_of_pos h0] at h6
    have h7 : 2 * Format.binary32.omega ≤ Format.binary64.omega := by decide +kernel
    linarith
  refine ⟨_, loads_single hd hh decpt, ?_⟩
  have h8 : Ieee.Finite (Ieee.rnd Format.binary32 (if decValue ds decpt = 0 then false
      else decide (decValue ds decpt < 0)) r) ∧ Ieee.val (Ieee.rnd Format.binary32
      (if decValue ds decpt = 0 then false else decide (decValue ds decpt < 0)) r) = q := by
    unfold Ieee.rnd
    rw [dif_pos (by rw [h3]; exact hq.le_omega)]
    exact ⟨trivial, h3⟩
  have h9 : Ieee.rnd Format.binary64 false (decValue ds decpt) =
      .fin (if decValue ds decpt = 0 then false else decide (decValue ds decpt < 0)) r
        (Format.binary64.roundQ_isRepr h4) (by
          intro hne
          have hne' : decValue ds decpt ≠ 0 := by
            intro h; rw [hr, h, Format.roundQ_zero] at hne; exact hne rfl
          have hpos : 0 < decValue ds decpt := lt_of_le_of_ne (decValue_nonneg ds decpt) hne'.symm
          rw [if_neg hne', decide_eq_decide]
          have hr0 : 0 ≤ r := Format.roundQ_nonneg _ hpos.le
          exact ⟨fun h => absurd hpos (not_lt.2 h.le), fun h => absurd hr0 (not_le.2 h)⟩) := by
    unfold Ieee.rnd
    rw [dif_pos h4]
  rw [h9]
  exact h8

/-- C130: sixteen digits are not enough: no decimal number of at most sixteen digits reads as the
`f64` sum `0.1 + 0.2`. -/
theorem C130_sixteen_not_enough : ∃ q : ℚ, Format.binary64.Representable q ∧ 0 < q ∧
    Ieee.val (FloatOps.add (q64 (1 / 10)) (q64 (2 / 10))) = q ∧
    ∀ ds decpt, IsDecimal Format.binary64 q ds decpt → 16 < ds.length := by
  have hqv : Ieee.val (FloatOps.add (q64 (1 / 10)) (q64 (2 / 10))) = 1351079888211149 / 2 ^ 52 := by
    decide +kernel
  refine ⟨1351079888211149 / 2 ^ 52, ⟨1351079888211149, -52, ?_⟩, by norm_num, hqv, ?_⟩
  · exact ⟨by decide, by decide, by decide, by norm_num⟩
  · intro ds decpt h
    by_contra hlen
    have hlen : ds.length ≤ 16 := by omega
    have hlo : Format.binary64.roundQ (3 / 10) < 1351079888211149 / 2 ^ 52 := by decide +kernel
    have hhi : (1351079888211149 / 2 ^ 52 : ℚ) <
        Format.binary64.roundQ (3000000000000001 / 10 ^ 16) := by decide +kernel
    have h1 : (3 / 10 : ℚ) < decValue ds decpt := by
      by_contra hc
      have := Format.roundQ_mono Format.binary64 (not_lt.1 hc)
      rw [h.round] at this
      exact absurd hlo (not_lt.2 this)
    have h2 : decValue ds decpt < (3000000000000001 / 10 ^ 16 : ℚ) := by
      by_contra hc
      have := Format.roundQ_mono Format.binary64 (not_lt.1 hc)
      rw [h.round] at this
      exact absurd hhi (not_lt.2 this)
    have hn : natOf ds < 10 ^ ds.length := by
      have hd := h.digit
      clear * - hd
      induction ds using List.reverseRecOn with
      | nil => exact Nat.zero_lt_one
      | append_singleton l x ih =>
        have ih := ih fun y hy => hd y (List.mem_append_left _ hy)
        have hx := hd x (List.mem_append_right _ List.mem_cons_self)
        rw [natOf_concat, List.length_append, List.length_singleton, pow_succ]
        omega
    have hn16 : (natOf ds : ℚ) < 10 ^ 16 := by
      have : natOf ds < 10 ^ 16 := lt_of_lt_of_le hn (Nat.pow_le_pow_right (by norm_num) hlen)
      exact_mod_cast this
    unfold decValue at h1 h2
    set e := decpt - (ds.length : Int)
    rcases le_or_gt (-16) e with he | he
    · obtain ⟨k, hk⟩ : ∃ k : Nat, e = -16 + k := ⟨(e + 16).toNat, by omega⟩
      rw [hk, zpow_add₀ (by norm_num), zpow_natCast] at h1 h2
      have h3 : (3000000000000000 : ℚ) < ((natOf ds * 10 ^ k : Nat) : ℚ) := by
        push_cast
        have : (10 : ℚ) ^ (-16 : Int) = 1 / 10 ^ 16 := by norm_num
        rw [this] at h1
        linarith
      have h4 : ((natOf ds * 10 ^ k : Nat) : ℚ) < 3000000000000001 := by
        push_cast
        have : (10 : ℚ) ^ (-16 : Int) = 1 / 10 ^ 16 := by norm_num
        rw [this] at h2
        linarith
      have h3' : 3000000000000000 < natOf ds * 10 ^ k := by exact_mod_cast h3
      have h4' : natOf ds * 10 ^ k < 3000000000000001 := by exact_mod_cast h4
      omega
    · have h5 : (10 : ℚ) ^ e ≤ 10 ^ (-17 : Int) := zpow_le_zpow_right₀ (by norm_num) (by omega)
      have h6 : (natOf ds : ℚ) * 10 ^ e ≤ 10 ^ 16 * 10 ^ (-17 : Int) :=
        mul_le_mul hn16.le h5 (zpow_nonneg (by norm_num) _) (by norm_num)
      have h7 : (10 : ℚ) ^ 16 * 10 ^ (-17 : Int) = 1 / 10 := by norm_num
      rw [h7] at h6
      exact absurd (h1.trans_le h6) (by norm_num)

/-! #### Concrete cases -/

/-- The shortest digits of 0.1. -/
example : IsShortest Format.binary64 (Format.binary64.roundQ (1 / 10)) [1] 0 :=
  ⟨⟨by decide, ⟨1, [], rfl, by decide⟩, by unfold decValue; norm_num [natOf]⟩, fun ds' _ h => by
    obtain ⟨d, l, rfl, -⟩ := h.head
    simp⟩

/-- The notations of `float.__repr__`. -/
example : [reprPos [1] 0, reprPos [1] (-3), reprPos [1] (-4), reprPos [1, 2, 3, 5] 3, reprPos [1, 5] 16,
    reprPos [1, 5] 17, reprPos [5] (-323)].map String.ofList =
    ["0.1", "0.0001", "1e-05", "123.5", "1500000000000000.0", "1.5e+16", "5e-324"] := by decide +kernel

/-- Reading: blanks, whole numbers, exponents, special values, subnormals, overflow to infinity. -/
example : loads "[0.1, -0.0,1e+22 , NaN, -Infinity, 5e-324, 3, -0, 1.5E3, 1e400]".toList =
    some [q64 (1 / 10), .neg (q64 0), q64 (10 ^ 22), .nan, .inf true, q64 (1 / 2 ^ 1074), q64 3, q64 0,
      q64 1500, .inf false] := by decide +kernel

/-- Texts that are no list of numbers. -/
example : [loads "[0.1, ]".toList, loads "[01]".toList, loads "[1.]".toList, loads "[.5]".toList,
    loads "[1 2]".toList, loads "[1]x".toList, loads "[1".toList, loads "1".toList] =
    [none, none, none, none, none, none, none, none] := by decide +kernel

/-- Another writer: 0.1 with twenty digits. -/
example : |decValue [1, 0, 0, 0, 0, 0, 0, 0, 0, 0, 0, 0, 0, 0, 0, 0, 0, 5, 5, 5] 0 -
    Format.binary64.roundQ (1 / 10)| < 1 / 2 ^ 54 * Format.binary64.roundQ (1 / 10) := by decide +kernel

/-- Another writer: the `f32` number next to 0.1 with nine digits. -/
example : |decValue [1, 0, 0, 0, 0, 0, 0, 0, 1] 0 - Format.binary32.roundQ (1 / 10)| <
    1 / 2 ^ 26 * Format.binary32.roundQ (1 / 10) := by decide +kernel

end Interpn
