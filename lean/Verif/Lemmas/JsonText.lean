import Verif.Model.JsonText
import Verif.Lemmas.Decimal
import Verif.Lemmas.IeeeNeg
import Verif.Props.IeeeJson

/-! Reading what was written, character by character (C130). -/

set_option autoImplicit false

namespace Interpn
namespace JsonText

theorem digitVal_digitChar {d : Nat} (h : d < 10) : digitVal? (digitChar d) = some d := by
  interval_cases d <;> decide

theorem digitChar_ne {d : Nat} (h : d < 10) :
    digitChar d ≠ '-' ∧ digitChar d ≠ '+' ∧ digitChar d ≠ 'N' ∧ digitChar d ≠ 'I' ∧
      isSpace (digitChar d) = false := by
  interval_cases d <;> decide

/-- The text goes on with something else than a digit. -/
def NoDigit (r : List Char) : Prop := ∀ c t, r = c :: t → digitVal? c = none

theorem scanDigits_text {ds : List Nat} (h : ∀ d ∈ ds, d < 10) {r : List Char} (hr : NoDigit r) :
    scanDigits (digitsText ds ++ r) = (ds, r) := by
  induction ds with
  | nil =>
    show scanDigits r = _
    cases r with
    | nil => rfl
    | cons c t => rw [scanDigits, hr c t rfl]
  | cons d ds ih =>
    have ih := ih fun d hd => h d (List.mem_cons_of_mem _ hd)
    show scanDigits (digitChar d :: (digitsText ds ++ r)) = _
    rw [scanDigits, digitVal_digitChar (h d List.mem_cons_self), ih]

theorem scanInt_text {d : Nat} {ds : List Nat} (h : ∀ x ∈ d :: ds, x < 10) (h0 : d ≠ 0)
    {r : List Char} (hr : NoDigit r) : scanInt (digitsText (d :: ds) ++ r) = some (d :: ds, r) := by
  have e := scanDigits_text (fun x hx => h x (List.mem_cons_of_mem _ hx)) hr
  show scanInt (digitChar d :: (digitsText ds ++ r)) = _
  rw [scanInt, digitVal_digitChar (h d List.mem_cons_self), e]
  cases d with
  | zero => exact absurd rfl h0
  | succ n => rfl

theorem scanInt_zero (r : List Char) : scanInt ('0' :: r) = some ([0], r) := rfl

theorem scanFrac_text {ds : List Nat} (h : ∀ d ∈ ds, d < 10) (h0 : ds ≠ []) {r : List Char}
    (hr : NoDigit r) : scanFrac ('.' :: (digitsText ds ++ r)) = (ds, r) := by
  rw [scanFrac, if_pos rfl, scanDigits_text h hr]
  cases ds with
  | nil => exact absurd rfl h0
  | cons d l => rfl

/-- What follows a number in an array. -/
def Ends (r : List Char) : Prop := ∃ t, r = ',' :: t ∨ r = ']' :: t

theorem Ends.noDigit {r : List Char} (h : Ends r) : NoDigit r := by
  obtain ⟨t, rfl | rfl⟩ := h <;> (intro c t' e; injection e with e1 e2; subst e1; decide)

theorem Ends.frac {r : List Char} (h : Ends r) : scanFrac r = ([], r) := by
  obtain ⟨t, rfl | rfl⟩ := h <;> rfl

theorem Ends.exp {r : List Char} (h : Ends r) : scanExp r = (none, r) := by
  obtain ⟨t, rfl | rfl⟩ := h <;> rfl

theorem noDigit_point (r : List Char) : NoDigit ('.' :: r) := by
  intro c t' e; injection e with e1 e2; subst e1; decide

theorem noDigit_e (r : List Char) : NoDigit ('e' :: r) := by
  intro c t' e; injection e with e1 e2; subst e1; decide

theorem natOf_cons_zero (l : List Nat) : natOf (0 :: l) = natOf l := by
  have := natOf_append [0] l
  rw [List.singleton_append] at this
  rw [this]; simp [natOf]

/-- Reading the exponent. -/
theorem scanExp_text (e : Int) {r : List Char} (hr : NoDigit r) :
    scanExp (expText e ++ r) = (some e, r) := by
  set ds := (Nat.digits 10 e.natAbs).reverse with hds
  set ds' := List.replicate (2 - ds.length) 0 ++ ds with hds'
  have hdig : ∀ d ∈ ds', d < 10 := by
    intro d hd
    rcases List.mem_append.1 hd with h | h
    · rw [List.eq_of_mem_replicate h]; norm_num
    · exact Nat.digits_lt_base (by norm_num) (List.mem_reverse.1 h)
  have hnat : natOf ds' = e.natAbs := by
    rw [hds', natOf_append, natOf_zeros, zero_mul, zero_add, hds, natOf_digits]
  have hne : ds' ≠ [] := by
    intro h0
    have h1 := congrArg List.length h0
    rw [hds', List.length_append, List.length_replicate, List.length_nil] at h1
    omega
  have hexp : expText e = 'e' :: (if e < 0 then '-' else '+') :: digitsText ds' := rfl
  rw [hexp]
  show scanExp ('e' :: ((if e < 0 then '-' else '+') :: (digitsText ds' ++ r))) = _
  have hs : scanSign ((if e < 0 then '-' else '+') :: (digitsText ds' ++ r)) =
      (decide (e < 0), digitsText ds' ++ r) := by
    by_cases h : e < 0
    · rw [if_pos h, scanSign, if_pos rfl, decide_eq_true h]
    · rw [if_neg h, scanSign, if_neg (by decide), if_pos rfl, decide_eq_false h]
  rw [scanExp, if_pos (Or.inl rfl), hs]
  dsimp only
  rw [scanDigits_text hdig hr]
  obtain ⟨d, l, hl⟩ := List.exists_cons_of_ne_nil hne
  rw [hl] at hnat ⊢
  dsimp only
  rw [hnat]
  congr 2
  by_cases h : e < 0
  · rw [decide_eq_true h, if_pos rfl]; omega
  · rw [decide_eq_false h, if_neg (by decide)]; omega

theorem toFloat_frac {neg : Bool} {int frac : List Nat} {exp : Option Int}
    (h : frac ≠ [] ∨ exp ≠ none) :
    toFloat neg int frac exp = some (Ieee.rnd Format.binary64 neg
      (if neg then -numValue int frac (exp.getD 0) else numValue int frac (exp.getD 0))) := by
  unfold toFloat
  cases frac with
  | nil =>
    cases exp with
    | none => rcases h with h | h <;> exact absurd rfl h
    | some e => rfl
  | cons d l => rfl

/-- Reading a positive number as it is written, after the sign. -/
theorem scanNumber_reprPos (neg : Bool) {ds : List Nat} (hd : ∀ d ∈ ds, d < 10)
    (hh : ∃ d l, ds = d :: l ∧ d ≠ 0) (decpt : Int) {r : List Char} (hr : Ends r) :
    scanNumber neg (reprPos ds decpt ++ r) = some (Ieee.rnd Format.binary64 neg
      (if neg then -decValue ds decpt else decValue ds decpt), r) := by
  have main : ∀ int frac exp (t : List Char), scanInt t = some (int, (t.drop int.length)) →
      scanFrac (t.drop int.length) = (frac, (scanFrac (t.drop int.length)).2) →
      scanExp (scanFrac (t.drop int.length)).2 = (exp, r) → (frac ≠ [] ∨ exp ≠ none) →
      numValue int frac (exp.getD 0) = decValue ds decpt →
      scanNumber neg t = some (Ieee.rnd Format.binary64 neg
        (if neg then -decValue ds decpt else decValue ds decpt), r) := by
    intro int frac exp t h1 h2 h3 h4 h5
    unfold scanNumber
    rw [h1]
    dsimp only
    rw [h3, h2]
    dsimp only
    rw [toFloat_frac h4, h5]
    rfl
  obtain ⟨d, l, hdl, hd0⟩ := hh
  have hz : ∀ n : Nat, ∀ x ∈ List.replicate n 0, x < 10 := by
    intro n x hx; rw [List.eq_of_mem_replicate hx]; norm_num
  unfold reprPos
  split
  · next hfix =>
    split
    · next hneg =>
      -- 0.000ddd
      have hdig : ∀ x ∈ List.replicate (-decpt).toNat 0 ++ ds, x < 10 := by
        intro x hx
        rcases List.mem_append.1 hx with h | h
        · exact hz _ x h
        · exact hd x h
      have hne : List.replicate (-decpt).toNat 0 ++ ds ≠ [] := by rw [hdl]; simp
      have hf := scanFrac_text hdig hne hr.noDigit
      refine main [0] (List.replicate (-decpt).toNat 0 ++ ds) none _ (scanInt_zero _) ?_ ?_ (Or.inl hne) ?_
      · show scanFrac ('.' :: (digitsText _ ++ r)) = (_, (scanFrac ('.' :: (digitsText _ ++ r))).2)
        rw [hf]
      · show scanExp (scanFrac ('.' :: (digitsText _ ++ r))).2 = _
        rw [hf]; exact hr.exp
      · unfold numValue decValue
        rw [List.singleton_append, natOf_cons_zero, natOf_append, natOf_zeros, zero_mul, zero_add]
        congr 2
        rw [List.length_append, List.length_replicate]
        simp only [Option.getD_none]
        push_cast
        omega
    · next hpos =>
      split
      · next hlt =>
        -- dd.dd
        obtain ⟨n, hn⟩ : ∃ n : Nat, decpt.toNat = n + 1 := ⟨decpt.toNat - 1, by omega⟩
        have htake : ds.take decpt.toNat = d :: l.take n := by rw [hdl, hn]; rfl
        have hdt : ∀ x ∈ d :: l.take n, x < 10 := by
          rw [← htake]; intro x hx; exact hd x (List.mem_of_mem_take hx)
        have hdd : ∀ x ∈ ds.drop decpt.toNat, x < 10 := fun x hx => hd x (List.mem_of_mem_drop hx)
        have hne : ds.drop decpt.toNat ≠ [] := by
          intro h0
          have := congrArg List.length h0
          rw [List.length_drop, List.length_nil] at this
          omega
        have hf := scanFrac_text hdd hne hr.noDigit
        have hi := scanInt_text hdt hd0 (noDigit_point (digitsText (ds.drop decpt.toNat) ++ r))
        have hlen : (d :: l.take n).length = (digitsText (d :: l.take n)).length := by
          unfold digitsText; rw [List.length_map]
        have hdrop : (digitsText (d :: l.take n) ++ '.' :: (digitsText (ds.drop decpt.toNat) ++ r)).drop
            (d :: l.take n).length = '.' :: (digitsText (ds.drop decpt.toNat) ++ r) := by
          rw [hlen]; exact List.drop_left
        rw [htake, List.append_assoc]
        show scanNumber neg (digitsText (d :: l.take n) ++ '.' :: (digitsText _ ++ r)) = _
        refine main (d :: l.take n) (ds.drop decpt.toNat) none _ ?_ ?_ ?_ (Or.inl hne) ?_
        · rw [hdrop]; exact hi
        · rw [hdrop, hf]
        · rw [hdrop, hf]; exact hr.exp
        · unfold numValue decValue
          rw [← htake, List.take_append_drop, List.length_drop]
          congr 2
          simp only [Option.getD_none]
          omega
      · next hge =>
        -- ddd00.0
        set k := decpt.toNat - ds.length with hk
        have hdt : ∀ x ∈ d :: (l ++ List.replicate k 0), x < 10 := by
          intro x hx
          rw [← List.cons_append, ← hdl] at hx
          rcases List.mem_append.1 hx with h | h
          · exact hd x h
          · exact hz _ x h
        have hi := scanInt_text hdt hd0 (noDigit_point ('0' :: r))
        have hf : scanFrac ('.' :: '0' :: r) = ([0], r) :=
          scanFrac_text (ds := [0]) (by simp) (by simp) hr.noDigit
        have hlen : (d :: (l ++ List.replicate k 0)).length =
            (digitsText (d :: (l ++ List.replicate k 0))).length := by
          unfold digitsText; rw [List.length_map]
        have hdrop : (digitsText (d :: (l ++ List.replicate k 0)) ++ '.' :: '0' :: r).drop
            (d :: (l ++ List.replicate k 0)).length = '.' :: '0' :: r := by
          rw [hlen]; exact List.drop_left
        have hcons : ds ++ List.replicate k 0 = d :: (l ++ List.replicate k 0) := by
          rw [hdl, List.cons_append]
        rw [hcons, List.append_assoc]
        show scanNumber neg (digitsText (d :: (l ++ List.replicate k 0)) ++ '.' :: '0' :: r) = _
        refine main (d :: (l ++ List.replicate k 0)) [0] none _ ?_ ?_ ?_ (Or.inl (by simp)) ?_
        · rw [hdrop]; exact hi
        · rw [hdrop, hf]
        · rw [hdrop, hf]; exact hr.exp
        · unfold numValue decValue
          rw [← hcons, natOf_concat, natOf_append, natOf_zeros, List.length_replicate]
          have hkz : (k : Int) = decpt - ds.length := by omega
          rw [← hkz]
          simp only [Option.getD_none, List.length_singleton]
          push_cast
          rw [zpow_natCast, show (10 : ℚ) ^ (-1 : Int) = 1 / 10 by norm_num]
          ring
  · next hexp =>
    have hx := scanExp_text (decpt - 1) hr.noDigit
    have htake : ds.take 1 = [d] := by rw [hdl]; rfl
    have hd1 : ∀ x ∈ [d], x < 10 := by
      intro x hx; rw [List.mem_singleton.1 hx]; exact hd d (by rw [hdl]; exact List.mem_cons_self)
    have hesc : ∃ t, expText (decpt - 1) ++ r = 'e' :: t := ⟨_, rfl⟩
    obtain ⟨t, ht⟩ := hesc
    rw [htake]
    split
    · next hlen =>
      have hl : l = [] := by
        rw [hdl] at hlen
        exact List.length_eq_zero_iff.1 (by simpa using hlen)
      have hi := scanInt_text hd1 hd0 (noDigit_e t)
      rw [← ht] at hi
      have hfr : scanFrac (expText (decpt - 1) ++ r) = ([], expText (decpt - 1) ++ r) := by
        rw [ht]; rfl
      rw [List.append_nil, List.append_assoc]
      refine main [d] [] (some (decpt - 1)) _ hi ?_ ?_ (Or.inr (by simp)) ?_
      · exact Prod.ext (congrArg Prod.fst hfr) rfl
      · exact (congrArg (fun p : List Nat × List Char => scanExp p.2) hfr).trans hx
      · unfold numValue decValue
        rw [hdl, hl, List.append_nil]
        congr 2
        simp
    · next hlen =>
      have hdrop1 : ds.drop 1 = l := by rw [hdl]; rfl
      have hne : l ≠ [] := by
        intro h0
        rw [hdl, h0] at hlen
        exact hlen (by simp)
      have hdl' : ∀ x ∈ l, x < 10 := fun x hx => hd x (by rw [hdl]; exact List.mem_cons_of_mem _ hx)
      have hi := scanInt_text hd1 hd0 (noDigit_point (digitsText l ++ (expText (decpt - 1) ++ r)))
      have hf := scanFrac_text hdl' hne (r := expText (decpt - 1) ++ r) (by rw [ht]; exact noDigit_e t)
      rw [hdrop1]
      have hassoc : digitsText [d] ++ '.' :: digitsText l ++ expText (decpt - 1) ++ r =
          digitsText [d] ++ '.' :: (digitsText l ++ (expText (decpt - 1) ++ r)) := by
        simp [List.append_assoc]
      rw [hassoc]
      refine main [d] l (some (decpt - 1)) _ hi ?_ ?_ (Or.inr (by simp)) ?_
      · show scanFrac ('.' :: (digitsText l ++ (expText (decpt - 1) ++ r))) =
          (_, (scanFrac ('.' :: (digitsText l ++ (expText (decpt - 1) ++ r)))).2)
        rw [hf]
      · show scanExp (scanFrac ('.' :: (digitsText l ++ (expText (decpt - 1) ++ r)))).2 = _
        rw [hf]; exact hx
      · unfold numValue decValue
        rw [List.singleton_append, ← hdl]
        congr 2
        rw [hdl, List.length_cons]
        simp only [Option.getD_some]
        push_cast
        ring

/-- The first character of a positive number is a digit. -/
theorem reprPos_head {ds : List Nat} (hd : ∀ d ∈ ds, d < 10) (hh : ∃ d l, ds = d :: l ∧ d ≠ 0)
    (decpt : Int) : ∃ d t, d < 10 ∧ reprPos ds decpt = digitChar d :: t := by
  obtain ⟨d, l, rfl, -⟩ := hh
  have h1 := hd d List.mem_cons_self
  unfold reprPos
  split
  · split
    · exact ⟨0, _, by norm_num, rfl⟩
    · split
      · next h2 h3 =>
        obtain ⟨n, hn⟩ : ∃ n : Nat, decpt.toNat = n + 1 := ⟨decpt.toNat - 1, by omega⟩
        rw [hn]
        exact ⟨d, _, h1, rfl⟩
      · exact ⟨d, _, h1, rfl⟩
  · exact ⟨d, _, h1, rfl⟩

theorem scanValue_digit {d : Nat} (h : d < 10) (t : List Char) :
    scanValue (digitChar d :: t) = scanNumber false (digitChar d :: t) := by
  have h1 := digitChar_ne h
  have eN : dropPrefix? ['N', 'a', 'N'] (digitChar d :: t) = none := by
    rw [dropPrefix?, if_neg h1.2.2.1.symm]
  have eI : dropPrefix? ['I', 'n', 'f', 'i', 'n', 'i', 't', 'y'] (digitChar d :: t) = none := by
    rw [dropPrefix?, if_neg h1.2.2.2.1.symm]
  have eM : dropPrefix? ['-', 'I', 'n', 'f', 'i', 'n', 'i', 't', 'y'] (digitChar d :: t) = none := by
    rw [dropPrefix?, if_neg h1.1.symm]
  have em : dropPrefix? ['-'] (digitChar d :: t) = none := by rw [dropPrefix?, if_neg h1.1.symm]
  unfold scanValue
  rw [eN, eI, eM, em]

theorem scanValue_minus {d : Nat} (h : d < 10) (t : List Char) :
    scanValue ('-' :: digitChar d :: t) = scanNumber true (digitChar d :: t) := by
  have h1 := digitChar_ne h
  have eN : dropPrefix? ['N', 'a', 'N'] ('-' :: digitChar d :: t) = none := by
    rw [dropPrefix?, if_neg (by decide)]
  have eI : dropPrefix? ['I', 'n', 'f', 'i', 'n', 'i', 't', 'y'] ('-' :: digitChar d :: t) = none := by
    rw [dropPrefix?, if_neg (by decide)]
  have eM : dropPrefix? ['-', 'I', 'n', 'f', 'i', 'n', 'i', 't', 'y'] ('-' :: digitChar d :: t) =
      none := by
    rw [dropPrefix?, if_pos rfl, dropPrefix?, if_neg h1.2.2.2.1.symm]
  have em : dropPrefix? ['-'] ('-' :: digitChar d :: t) = some (digitChar d :: t) := by
    rw [dropPrefix?, if_pos rfl, dropPrefix?]
  unfold scanValue
  rw [eN, eI, eM, em]

theorem scanNumber_zero (neg : Bool) {r : List Char} (hr : Ends r) :
    scanNumber neg ('0' :: '.' :: '0' :: r) = some (Ieee.rnd Format.binary64 neg 0, r) := by
  have hf : scanFrac ('.' :: '0' :: r) = ([0], r) :=
    scanFrac_text (ds := [0]) (by simp) (by simp) hr.noDigit
  unfold scanNumber
  rw [scanInt_zero]
  dsimp only
  rw [hf]
  dsimp only
  rw [hr.exp]
  dsimp only
  rw [toFloat_frac (Or.inl (by simp))]
  have hv : numValue [0] [0] (Option.getD none 0) = 0 := by
    unfold numValue
    have : natOf ([0] ++ [0]) = 0 := rfl
    rw [this]; simp
  rw [hv]
  cases neg <;> simp

/-- A float is read as it was written. -/
theorem scanValue_floatText (P : Printer) (x : F64) {r : List Char} (hr : Ends r) :
    scanValue (floatText P x ++ r) = some (x, r) := by
  cases x with
  | nan => rfl
  | inf s => cases s <;> rfl
  | fin s q hq hs =>
    rcases eq_or_ne q 0 with rfl | h0
    · have e : Ieee.rnd Format.binary64 s 0 = .fin s 0 hq hs := Ieee.rnd_repr_eq hq hs
      cases s with
      | false =>
        have : floatText P (.fin false 0 hq hs) ++ r = digitChar 0 :: '.' :: '0' :: r := by
          simp [floatText, show digitChar 0 = '0' from rfl]
        rw [this, scanValue_digit (by norm_num)]
        exact (scanNumber_zero false hr).trans (by rw [e])
      | true =>
        have : floatText P (.fin true 0 hq hs) ++ r = '-' :: digitChar 0 :: '.' :: '0' :: r := by
          simp [floatText, show digitChar 0 = '0' from rfl]
        rw [this, scanValue_minus (by norm_num)]
        exact (scanNumber_zero true hr).trans (by rw [e])
    · have hpos : 0 < |q| := abs_pos.2 h0
      have hrep : Format.binary64.Representable |q| := by
        rcases abs_choice q with h | h <;> rw [h]
        · exact hq
        · exact hq.neg
      have hP := P.correct |q| hrep hpos
      have hscan := scanNumber_reprPos s hP.digit hP.head (P.decpt |q|) hr
      obtain ⟨d, t, hd, ht⟩ := reprPos_head hP.digit hP.head (P.decpt |q|)
      have hround : Ieee.rnd Format.binary64 s (if s then -decValue (P.digits |q|) (P.decpt |q|)
          else decValue (P.digits |q|) (P.decpt |q|)) = .fin s q hq hs := by
        have hsq := hs h0
        have e : Format.binary64.roundQ (if s then -decValue (P.digits |q|) (P.decpt |q|)
            else decValue (P.digits |q|) (P.decpt |q|)) = q := by
          cases s with
          | false =>
            have : ¬ q < 0 := of_decide_eq_false hsq.symm
            rw [if_neg (by decide), hP.round, abs_of_nonneg (not_lt.1 this)]
          | true =>
            have : q < 0 := of_decide_eq_true hsq.symm
            rw [if_pos rfl, Ieee.roundQ_neg, hP.round, abs_of_neg this, neg_neg]
        have hv : 0 < decValue (P.digits |q|) (P.decpt |q|) := by
          refine lt_of_le_of_ne (mul_nonneg (Nat.cast_nonneg _) (zpow_nonneg (by norm_num) _)) fun h => ?_
          have h1 := hP.round
          rw [← h, Format.roundQ_zero] at h1
          exact hpos.ne h1
        unfold Ieee.rnd
        rw [dif_pos (by rw [e]; exact hq.le_omega)]
        congr 1
        cases s with
        | false => simp [hv.le]
        | true => simp [hv.ne', hv]
      rw [hround] at hscan
      cases s with
      | false =>
        have hb : floatText P (.fin false q hq hs) = reprPos (P.digits |q|) (P.decpt |q|) := by
          simp [floatText, h0]
        rw [hb, ht, List.cons_append, scanValue_digit hd, ← List.cons_append, ← ht]
        exact hscan
      | true =>
        have hb : floatText P (.fin true q hq hs) = '-' :: reprPos (P.digits |q|) (P.decpt |q|) := by
          simp [floatText, h0]
        rw [hb, ht, List.cons_append, List.cons_append, scanValue_minus hd, ← List.cons_append, ← ht]
        exact hscan

/-- The first character of a float. -/
theorem floatText_head (P : Printer) (x : F64) :
    ∃ c t, floatText P x = c :: t ∧ isSpace c = false ∧ c ≠ ']' := by
  cases x with
  | nan => exact ⟨'N', _, rfl, by decide, by decide⟩
  | inf s => cases s <;> exact ⟨_, _, rfl, by decide, by decide⟩
  | fin s q hq hs =>
    cases s with
    | true => exact ⟨'-', _, rfl, by decide, by decide⟩
    | false =>
      rcases eq_or_ne q 0 with h0 | h0
      · exact ⟨'0', ['.', '0'], by simp [floatText, h0], by decide, by decide⟩
      · have hrep : Format.binary64.Representable |q| := by
          rcases abs_choice q with h | h <;> rw [h]
          · exact hq
          · exact hq.neg
        have hP := P.correct |q| hrep (abs_pos.2 h0)
        obtain ⟨d, t, hd, ht⟩ := reprPos_head hP.digit hP.head (P.decpt |q|)
        refine ⟨digitChar d, t, by simp [floatText, h0, ht], (digitChar_ne hd).2.2.2.2, ?_⟩
        interval_cases d <;> decide

theorem skipSpace_floatText (P : Printer) (x : F64) (r : List Char) :
    skipSpace (floatText P x ++ r) = floatText P x ++ r := by
  obtain ⟨c, t, h1, h2, -⟩ := floatText_head P x
  rw [h1]
  unfold skipSpace
  rw [List.cons_append, List.dropWhile_cons_of_neg (by simp [h2])]

theorem ends_dumpsTail (P : Printer) (l : List F64) : Ends (dumpsTail P l) := by
  cases l with
  | nil => exact ⟨[], Or.inr rfl⟩
  | cons x l => exact ⟨_, Or.inl rfl⟩

theorem scanElems_dumps (P : Printer) (x : F64) (l : List F64) (n : Nat) (hn : l.length < n) :
    scanElems n (floatText P x ++ dumpsTail P l) = some (x :: l, []) := by
  induction l generalizing x n with
  | nil =>
    obtain ⟨m, rfl⟩ : ∃ m, n = m + 1 := ⟨n - 1, by rw [List.length_nil] at hn; omega⟩
    rw [scanElems, scanValue_floatText P x (ends_dumpsTail P [])]
    rfl
  | cons y l ih =>
    obtain ⟨m, rfl⟩ : ∃ m, n = m + 1 := ⟨n - 1, by omega⟩
    have ih := ih y m (by rw [List.length_cons] at hn; omega)
    rw [scanElems, scanValue_floatText P x (ends_dumpsTail P (y :: l))]
    have e1 : skipSpace (dumpsTail P (y :: l)) =
        ',' :: ' ' :: (floatText P y ++ dumpsTail P l) := rfl
    simp only [e1]
    have e2 : skipSpace (' ' :: (floatText P y ++ dumpsTail P l)) =
        skipSpace (floatText P y ++ dumpsTail P l) := rfl
    rw [e2, skipSpace_floatText, ih]
    rfl

theorem length_dumpsTail (P : Printer) (l : List F64) : l.length < (dumpsTail P l).length := by
  induction l with
  | nil => exact Nat.zero_lt_one
  | cons x l ih =>
    rw [dumpsTail, List.length_cons, List.length_cons, List.length_cons, List.length_append]
    omega

theorem loads_dumps (P : Printer) (l : List F64) : loads (dumps P l) = some l := by
  cases l with
  | nil => rfl
  | cons x l =>
    have h1 : skipSpace (dumps P (x :: l)) = '[' :: (floatText P x ++ dumpsTail P l) := rfl
    have h2 : scanArray ('[' :: (floatText P x ++ dumpsTail P l)) = some (x :: l, []) := by
      have e := scanElems_dumps P x l (floatText P x ++ dumpsTail P l).length (by
        have := length_dumpsTail P l
        rw [List.length_append]; omega)
      have e0 := skipSpace_floatText P x (dumpsTail P l)
      unfold scanArray
      simp only [e0]
      obtain ⟨c, t, hc, -, hb⟩ := floatText_head P x
      rw [hc, List.cons_append] at e ⊢
      split
      · next r heq => injection heq with h3 h4; exact absurd h3 hb
      · exact e
    unfold loads
    rw [h1, h2]
    rfl

theorem decValue_nonneg (ds : List Nat) (decpt : Int) : 0 ≤ decValue ds decpt :=
  mul_nonneg (Nat.cast_nonneg _) (zpow_nonneg (by norm_num) _)

/-- Reading a list of one positive number. -/
theorem loads_single {ds : List Nat} (hd : ∀ d ∈ ds, d < 10) (hh : ∃ d l, ds = d :: l ∧ d ≠ 0)
    (decpt : Int) : loads ('[' :: (reprPos ds decpt ++ [']'])) =
      some [Ieee.rnd Format.binary64 false (decValue ds decpt)] := by
  have hends : Ends [']'] := ⟨[], Or.inr rfl⟩
  have hs := scanNumber_reprPos false hd hh decpt hends
  rw [if_neg (by decide)] at hs
  obtain ⟨d, t, hd10, ht⟩ := reprPos_head hd hh decpt
  have hsp := (digitChar_ne hd10).2.2.2.2
  have hrb : digitChar d ≠ ']' := by clear * - hd10; interval_cases d <;> decide
  rw [ht, List.cons_append] at hs ⊢
  rw [← scanValue_digit hd10] at hs
  have e0 : skipSpace (digitChar d :: (t ++ [']'])) = digitChar d :: (t ++ [']']) := by
    unfold skipSpace; rw [List.dropWhile_cons_of_neg (by simp [hsp])]
  have e1 : scanElems (digitChar d :: (t ++ [']'])).length (digitChar d :: (t ++ [']'])) =
      some ([Ieee.rnd Format.binary64 false (decValue ds decpt)], []) := by
    rw [List.length_cons, scanElems, hs]
    rfl
  have e2 : scanArray ('[' :: digitChar d :: (t ++ [']'])) =
      some ([Ieee.rnd Format.binary64 false (decValue ds decpt)], []) := by
    unfold scanArray
    simp only [e0]
    split
    · next r heq => injection heq with h3 h4; exact absurd h3 hrb
    · exact e1
  have e3 : skipSpace ('[' :: digitChar d :: (t ++ [']'])) = '[' :: digitChar d :: (t ++ [']']) := rfl
  unfold loads
  rw [e3, e2]
  rfl

/-! ### Characters -/

/-- The characters of a dumped array. -/
def plain : List Char :=
  ['[', ']', ',', ' ', '.', '+', '-', 'e', '0', '1', '2', '3', '4', '5', '6', '7', '8', '9',
    'N', 'a', 'I', 'n', 'f', 'i', 't', 'y']

theorem digitsText_plain {ds : List Nat} (h : ∀ d ∈ ds, d < 10) : ∀ c ∈ digitsText ds, c ∈ plain := by
  intro c hc
  obtain ⟨d, hd, rfl⟩ := List.mem_map.1 hc
  have := h d hd
  interval_cases d <;> decide

theorem reprPos_plain {ds : List Nat} (h : ∀ d ∈ ds, d < 10) (decpt : Int) :
    ∀ c ∈ reprPos ds decpt, c ∈ plain := by
  have hz : ∀ n : Nat, ∀ x ∈ List.replicate n 0, x < 10 := by
    intro n x hx; rw [List.eq_of_mem_replicate hx]; norm_num
  have happ : ∀ {a b : List Nat}, (∀ d ∈ a, d < 10) → (∀ d ∈ b, d < 10) →
      ∀ c ∈ digitsText (a ++ b), c ∈ plain := fun ha hb =>
    digitsText_plain fun d hd => (List.mem_append.1 hd).elim (ha d) (hb d)
  have ht : ∀ n, ∀ c ∈ digitsText (ds.take n), c ∈ plain := fun n =>
    digitsText_plain fun d hd => h d (List.mem_of_mem_take hd)
  have hdr : ∀ n, ∀ c ∈ digitsText (ds.drop n), c ∈ plain := fun n =>
    digitsText_plain fun d hd => h d (List.mem_of_mem_drop hd)
  have hdot : '.' ∈ plain := by decide
  have h0 : '0' ∈ plain := by decide
  have he : ∀ e, ∀ c ∈ expText e, c ∈ plain := by
    intro e c hc
    unfold expText at hc
    rcases List.mem_cons.1 hc with rfl | hc
    · decide
    rcases List.mem_cons.1 hc with rfl | hc
    · split <;> decide
    · exact happ (hz _) (fun d hd => Nat.digits_lt_base (by norm_num) (List.mem_reverse.1 hd)) c hc
  unfold reprPos
  split
  · split
    · intro c hc
      rcases List.mem_cons.1 hc with rfl | hc
      · exact h0
      rcases List.mem_cons.1 hc with rfl | hc
      · exact hdot
      · exact happ (hz _) h c hc
    · split
      · intro c hc
        rcases List.mem_append.1 hc with hc | hc
        · exact ht _ c hc
        rcases List.mem_cons.1 hc with rfl | hc
        · exact hdot
        · exact hdr _ c hc
      · intro c hc
        rcases List.mem_append.1 hc with hc | hc
        · exact happ h (hz _) c hc
        · fin_cases hc
          · exact hdot
          · exact h0
  · intro c hc
    rcases List.mem_append.1 hc with hc | hc
    · rcases List.mem_append.1 hc with hc | hc
      · exact ht _ c hc
      · split at hc
        · exact absurd hc List.not_mem_nil
        · rcases List.mem_cons.1 hc with rfl | hc
          · exact hdot
          · exact hdr _ c hc
    · exact he _ c hc

theorem floatText_plain (P : Printer) (x : F64) : ∀ c ∈ floatText P x, c ∈ plain := by
  cases x with
  | nan => exact show ∀ c ∈ ['N', 'a', 'N'], c ∈ plain by decide
  | inf s =>
    cases s with
    | false => exact show ∀ c ∈ ['I', 'n', 'f', 'i', 'n', 'i', 't', 'y'], c ∈ plain by decide
    | true => exact show ∀ c ∈ ['-', 'I', 'n', 'f', 'i', 'n', 'i', 't', 'y'], c ∈ plain by decide
  | fin s q hq hs =>
    have hbody : ∀ c ∈ (if q = 0 then ['0', '.', '0'] else reprPos (P.digits |q|) (P.decpt |q|)),
        c ∈ plain := by
      split
      · decide
      · next h0 =>
        have hrep : Format.binary64.Representable |q| := by
          rcases abs_choice q with h | h <;> rw [h]
          · exact hq
          · exact hq.neg
        exact reprPos_plain (P.correct |q| hrep (abs_pos.2 h0)).digit _
    intro c hc
    unfold floatText at hc
    cases s with
    | false => exact hbody c hc
    | true =>
      rcases List.mem_cons.1 hc with rfl | hc
      · decide
      · exact hbody c hc

theorem dumpsTail_plain (P : Printer) (l : List F64) : ∀ c ∈ dumpsTail P l, c ∈ plain := by
  induction l with
  | nil => exact show ∀ c ∈ [']'], c ∈ plain by decide
  | cons x l ih =>
    intro c hc
    rcases List.mem_cons.1 hc with rfl | hc
    · decide
    rcases List.mem_cons.1 hc with rfl | hc
    · decide
    rcases List.mem_append.1 hc with hc | hc
    · exact floatText_plain P x c hc
    · exact ih c hc

theorem dumps_plain (P : Printer) (l : List F64) : ∀ c ∈ dumps P l, c ∈ plain := by
  cases l with
  | nil => exact show ∀ c ∈ ['[', ']'], c ∈ plain by decide
  | cons x l =>
    intro c hc
    rcases List.mem_cons.1 hc with rfl | hc
    · decide
    rcases List.mem_append.1 hc with hc | hc
    · exact floatText_plain P x c hc
    · exact dumpsTail_plain P l c hc

end JsonText
end Interpn
