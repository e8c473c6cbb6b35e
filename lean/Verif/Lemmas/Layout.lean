import Verif.Lemmas.Basic
import Verif.Spec.Layout
import Verif.Lemmas.Forms
import Mathlib.Tactic.Ring
import Mathlib.Algebra.Order.BigOperators.Ring.Finset

/-! Strides, flat indices and the setup loops. -/

set_option autoImplicit false

namespace Interpn

variable {T α : Type} {N : Nat}

/-- Product of the last `i` entries of `dims`. -/
def tailProd (dims : Fin N → Nat) : Nat → Nat
  | 0 => 1
  | i + 1 => tailProd dims i * (if h : N - i - 1 < N then dims ⟨N - i - 1, h⟩ else 1)

/-- The strides computed by the code. -/
def strides (dims : Fin N → Nat) (k : Fin N) : Nat := tailProd dims (N - 1 - k.val)

theorem tailProd_succ (dims : Fin N → Nat) {i : Nat} (h : i < N) :
    tailProd dims (i + 1) = tailProd dims i * dims ⟨N - i - 1, by omega⟩ := by
  simp [tailProd, show N - i - 1 < N by omega]

theorem tailProd_snoc (dims : Fin (N + 1) → Nat) (i : Nat) (hi : i ≤ N) :
    tailProd dims (i + 1) =
      tailProd (fun k : Fin N => dims k.castSucc) i * dims (Fin.last N) := by
  induction i with
  | zero => simp [tailProd, Fin.last]
  | succ i ih =>
    rw [tailProd_succ dims (by omega), ih (by omega), tailProd_succ _ (by omega)]
    have : (⟨N + 1 - (i + 1) - 1, by omega⟩ : Fin (N + 1)) =
        (⟨N - i - 1, by omega⟩ : Fin N).castSucc := by
      ext; simp
    rw [this, mul_right_comm]

theorem tailProd_full : ∀ {N : Nat} (dims : Fin N → Nat), tailProd dims N = ∏ k, dims k
  | 0, dims => by simp [tailProd]
  | N + 1, dims => by
    rw [tailProd_snoc dims N le_rfl, tailProd_full, Fin.prod_univ_castSucc]

theorem tailProd_pos (dims : Fin N → Nat) (h : ∀ k, 0 < dims k) (i : Nat) :
    0 < tailProd dims i := by
  induction i with
  | zero => simp [tailProd]
  | succ i ih =>
    rw [tailProd]; apply Nat.mul_pos ih
    split
    · exact h _
    · omega

theorem tailProd_mono (dims : Fin N → Nat) (h : ∀ k, 0 < dims k) {i j : Nat} (hij : i ≤ j) :
    tailProd dims i ≤ tailProd dims j := by
  induction j, hij using Nat.le_induction with
  | base => exact le_rfl
  | succ j _ ih =>
    refine ih.trans ?_
    rw [tailProd]; apply Nat.le_mul_of_pos_right
    split
    · exact h _
    · omega

theorem tailProd_le_prod (dims : Fin N → Nat) (h : ∀ k, 0 < dims k) {i : Nat} (hi : i ≤ N) :
    tailProd dims i ≤ ∏ k, dims k := by
  rw [← tailProd_full]; exact tailProd_mono dims h hi

theorem strides_castSucc (dims : Fin (N + 1) → Nat) (k : Fin N) :
    strides dims k.castSucc = strides (fun k : Fin N => dims k.castSucc) k * dims (Fin.last N) := by
  unfold strides
  rw [show N + 1 - 1 - k.castSucc.val = (N - 1 - k.val) + 1 by have := k.isLt; simp; omega]
  rw [tailProd_snoc dims _ (by omega)]

theorem strides_last (dims : Fin (N + 1) → Nat) : strides dims (Fin.last N) = 1 := by
  simp [strides, tailProd]

/-- The strided sum is the C-order index. -/
theorem sum_strides : ∀ {N : Nat} (dims loc : Fin N → Nat),
    ∑ k, loc k * strides dims k = cIndex dims loc
  | 0, dims, loc => by simp [cIndex]
  | N + 1, dims, loc => by
    rw [Fin.sum_univ_castSucc, cIndex, ← sum_strides, strides_last, Finset.sum_mul]
    simp only [strides_castSucc, mul_one, mul_assoc]

theorem cIndex_lt : ∀ {N : Nat} (dims loc : Fin N → Nat), (∀ k, loc k < dims k) →
    cIndex dims loc < ∏ k, dims k
  | 0, dims, loc, _ => by simp [cIndex]
  | N + 1, dims, loc, h => by
    have ih := cIndex_lt (fun k : Fin N => dims k.castSucc) (fun k => loc k.castSucc)
      (fun k => h k.castSucc)
    rw [Fin.prod_univ_castSucc, cIndex]
    have hl := h (Fin.last N)
    calc _ < cIndex (fun k : Fin N => dims k.castSucc) (fun k => loc k.castSucc) *
              dims (Fin.last N) + dims (Fin.last N) := by omega
      _ = (cIndex (fun k : Fin N => dims k.castSucc) (fun k => loc k.castSucc) + 1) *
              dims (Fin.last N) := by ring
      _ ≤ _ := Nat.mul_le_mul_right _ ih

theorem cIndex_inj : ∀ {N : Nat} (dims a b : Fin N → Nat), (∀ k, a k < dims k) →
    (∀ k, b k < dims k) → cIndex dims a = cIndex dims b → a = b
  | 0, dims, a, b, _, _, _ => by funext k; exact k.elim0
  | N + 1, dims, a, b, ha, hb, h => by
    rw [cIndex, cIndex] at h
    have hla := ha (Fin.last N)
    have hlb := hb (Fin.last N)
    have hm := congrArg (· % dims (Fin.last N)) h
    simp only [Nat.add_comm _ (_ : ℕ), Nat.add_mul_mod_self_right, Nat.mod_eq_of_lt hla,
      Nat.mod_eq_of_lt hlb] at hm
    have hd := congrArg (· / dims (Fin.last N)) h
    rw [mul_comm, mul_comm _ (dims (Fin.last N)), Nat.mul_add_div (by omega),
      Nat.mul_add_div (by omega), Nat.div_eq_of_lt hla, Nat.div_eq_of_lt hlb] at hd
    have := cIndex_inj (fun k : Fin N => dims k.castSucc) _ _ (fun k => ha k.castSucc)
      (fun k => hb k.castSucc) (by simpa using hd)
    funext k
    induction k using Fin.lastCases with
    | last => exact hm
    | cast k => exact congrFun this k

theorem cIndex_surj : ∀ {N : Nat} (dims : Fin N → Nat) (i : Nat), i < ∏ k, dims k →
    ∃ loc : Fin N → Nat, (∀ k, loc k < dims k) ∧ cIndex dims loc = i
  | 0, dims, i, h => ⟨fun k => k.elim0, fun k => k.elim0, by simp at h; simp [cIndex, h]⟩
  | N + 1, dims, i, h => by
    rw [Fin.prod_univ_castSucc] at h
    have hpos : 0 < dims (Fin.last N) := by
      rcases Nat.eq_zero_or_pos (dims (Fin.last N)) with h0 | h0
      · simp [h0] at h
      · exact h0
    obtain ⟨loc, hl, hi⟩ := cIndex_surj (fun k : Fin N => dims k.castSucc) (i / dims (Fin.last N))
      (Nat.div_lt_of_lt_mul (by rwa [mul_comm] at h))
    refine ⟨Fin.snoc loc (i % dims (Fin.last N)), ?_, ?_⟩
    · intro k
      induction k using Fin.lastCases with
      | last => simpa using Nat.mod_lt _ hpos
      | cast k => simpa using hl k
    · simp only [cIndex, Fin.snoc_castSucc, Fin.snoc_last]
      rw [hi, mul_comm]; exact Nat.div_add_mod i _

/-! ### `indexArr` -/

theorem indexArr_eq (dims loc : Fin N → Nat) (vals : List T) (hloc : ∀ k, loc k < dims k)
    (hlen : vals.length = ∏ k, dims k) (hmax : vals.length ≤ usizeMax) :
    indexArr loc (strides dims) vals = lget vals (cIndex dims loc) := by
  have hlt := cIndex_lt dims loc hloc
  rw [← sum_strides] at hlt ⊢
  have hpart : ∀ j ≤ N, (∑ k : Fin N, if k.val < j then loc k * strides dims k else 0) ≤
      ∑ k, loc k * strides dims k := by
    intro j _
    apply Finset.sum_le_sum
    intro k _; split <;> omega
  have hstep : ∀ j (hj : j < N), (∑ k : Fin N, if k.val < j + 1 then loc k * strides dims k else 0)
      = (∑ k : Fin N, if k.val < j then loc k * strides dims k else 0)
        + loc ⟨j, hj⟩ * strides dims ⟨j, hj⟩ := by
    intro j hj
    have : ∀ k : Fin N, (if k.val < j + 1 then loc k * strides dims k else 0) =
        (if k.val < j then loc k * strides dims k else 0) +
          (if k = ⟨j, hj⟩ then loc k * strides dims k else 0) := by
      intro k
      by_cases h1 : k.val = j
      · have h2 : k = ⟨j, hj⟩ := Fin.ext h1
        subst h2; simp
      · have h2 : k ≠ ⟨j, hj⟩ := fun h => h1 (by rw [h])
        by_cases h3 : k.val < j
        · simp [h3, h2, show k.val < j + 1 by omega]
        · simp [h3, h2, show ¬ k.val < j + 1 by omega]
    simp only [this, Finset.sum_add_distrib]
    simp
  unfold indexArr
  rw [forRange_eq (fun j => ∑ k : Fin N, if k.val < j then loc k * strides dims k else 0)]
  · simp
  · simp
  · intro j hj
    have h1 := hpart (j + 1) hj
    rw [hstep j hj] at h1 ⊢
    rw [aget_lt _ hj, aget_lt _ hj]
    simp only [Res.ok_bind]
    rw [umul_ok (by omega), Res.ok_bind, uadd_ok (by omega)]

/-! ### Setup loops -/

theorem flatSetup_eq (dims : Fin N → Nat) (init : α) (axis : Nat → Res α)
    (hpos : ∀ k, 0 < dims k) (hmax : ∏ k, dims k ≤ usizeMax) :
    flatSetup dims init axis =
      (axisLoop N init axis >>= fun a => Res.ok (strides dims, a)) := by
  -- generalise over the number of iterations performed
  have key : ∀ n ≤ N,
      (forRange n (1, (fun _ => 1), (fun _ => init)) fun i
          (st : Nat × (Fin N → Nat) × (Fin N → α)) => do
        let acc ← accStep dims i st.1
        let dimprod ← aset st.2.1 (N - i - 1) acc
        let axes ← aset st.2.2 i (← axis i)
        return (acc, dimprod, axes)) =
      (forRange n (fun _ => init) (fun i (a : Fin N → α) => do aset a i (← axis i)) >>= fun a =>
        Res.ok (tailProd dims (n - 1),
          (fun k : Fin N => if N - n ≤ k.val then strides dims k else 1), a)) := by
    intro n
    induction n with
    | zero =>
      intro _
      simp only [forRange_zero, Res.ok_bind]
      congr 3
      funext k; simp [show ¬ N ≤ k.val by have := k.isLt; omega]
    | succ n ih =>
      intro hn
      rw [forRange_succ, forRange_succ, ih (by omega)]
      cases hr : forRange n (fun _ => init) (fun i (a : Fin N → α) => do aset a i (← axis i)) with
      | err e => rfl
      | panic => rfl
      | ok a =>
        have hacc : accStep dims n (tailProd dims (n - 1)) = Res.ok (tailProd dims n) := by
          unfold accStep
          by_cases h0 : 0 < n
          · rw [if_pos h0, aget_lt dims (show N - n < N by omega), Res.ok_bind]
            have := tailProd_succ dims (i := n - 1) (by omega)
            rw [show n - 1 + 1 = n by omega] at this
            have he : (⟨N - (n - 1) - 1, by omega⟩ : Fin N) = ⟨N - n, by omega⟩ := by
              ext; simp; omega
            rw [he] at this
            rw [umul_ok, this]
            rw [← this]
            exact (tailProd_le_prod dims hpos (by omega)).trans hmax
          · have : n = 0 := by omega
            subst this; simp
        simp only [Res.ok_bind]
        rw [hacc, Res.ok_bind, aset_lt _ (show N - n - 1 < N by omega), Res.ok_bind]
        cases axis n with
        | err e => rfl
        | panic => rfl
        | ok v =>
          simp only [Res.ok_bind]
          rw [aset_lt _ (show n < N by omega)]
          simp only [Res.ok_bind, Res.pure_eq, Nat.add_sub_cancel]
          congr 3
          funext k
          have := k.isLt
          by_cases h1 : k.val = N - n - 1
          · simp only [h1, if_true]
            rw [if_pos (by omega)]
            simp only [strides, h1]; congr 1; omega
          · rw [if_neg h1]
            by_cases h2 : N - n ≤ k.val
            · rw [if_pos h2, if_pos (by omega)]
            · rw [if_neg h2, if_neg (by omega)]
  unfold flatSetup axisLoop
  rw [key N le_rfl]
  cases forRange N (fun _ => init) (fun i (a : Fin N → α) => do aset a i (← axis i)) with
  | err e => rfl
  | panic => rfl
  | ok a =>
    simp only [Res.ok_bind, Res.pure_eq]
    congr 2
    funext k; simp

theorem recDimprod_eq {M : Nat} (n : Nat) (hn : n ≤ M) (dims : Fin M → Nat)
    (hpos : ∀ k : Fin M, k.val < n → 0 < dims k)
    (hmax : ∏ k : Fin n, dims (Fin.castLE hn k) ≤ usizeMax) :
    recDimprod n dims = .ok (strides fun k : Fin n => dims (Fin.castLE hn k)) := by
  set d : Fin n → Nat := fun k => dims (Fin.castLE hn k) with hd
  have hpos' : ∀ k, 0 < d k := fun k => hpos _ k.isLt
  unfold recDimprod
  rw [forRange_eq (fun i => (tailProd d i,
      (fun k : Fin n => if n - i ≤ k.val then strides d k else 1)))]
  · simp only [Res.ok_bind, Res.pure_eq]
    congr 1; funext k; simp
  · simp only [tailProd]
    congr 1
    funext k; simp [show ¬ n ≤ k.val by have := k.isLt; omega]
  · intro i hi
    simp only
    rw [aset_lt _ (show n - i - 1 < n by omega), Res.ok_bind,
      aget_lt dims (show n - i - 1 < M by omega), Res.ok_bind]
    have hs := tailProd_succ d hi
    have he : dims ⟨n - i - 1, by omega⟩ = d ⟨n - i - 1, by omega⟩ := rfl
    rw [he, umul_ok (by rw [← hs]; exact (tailProd_le_prod d hpos' (by omega)).trans hmax), ← hs]
    simp only [Res.ok_bind, Res.pure_eq]
    congr 2
    funext k
    have := k.isLt
    by_cases h1 : k.val = n - i - 1
    · simp only [h1, if_true]
      rw [if_pos (by omega)]
      simp only [strides, h1]; congr 1; omega
    · rw [if_neg h1]
      by_cases h2 : n - i ≤ k.val
      · rw [if_pos h2, if_pos (by omega)]
      · rw [if_neg h2, if_neg (by omega)]

/-! ### `axisLoop` -/

theorem axisLoop_ok (n : Nat) (init : α) (f : Nat → Res α) (a : Fin n → α)
    (h : ∀ k : Fin n, f k = .ok (a k)) : axisLoop n init f = .ok a := by
  unfold axisLoop
  rw [forRange_eq (fun i => (fun k : Fin n => if k.val < i then a k else init))]
  · congr 1; funext k; simp
  · funext k; simp
  · intro i hi
    rw [h ⟨i, hi⟩, Res.ok_bind, aset_lt _ hi]
    congr 1; funext k
    by_cases h1 : k.val = i
    · have : k = ⟨i, hi⟩ := Fin.ext h1
      subst this; simp
    · by_cases h2 : k.val < i
      · simp [h1, h2, show k.val < i + 1 by omega]
      · simp [h1, h2, show ¬ k.val < i + 1 by omega]

/-- If an axis fails and all earlier axes succeed, the loop fails in the same way. -/
theorem axisLoop_fail (n : Nat) (init : α) (f : Nat → Res α) (i : Nat) (hi : i < n)
    (hok : ∀ j < i, ∃ a, f j = .ok a) :
    (∀ e, f i = .err e → axisLoop n init f = .err e) ∧
    (f i = .panic → axisLoop n init f = .panic) := by
  have hpre : ∃ a, forRange i (fun _ => init) (fun i (a : Fin n → α) => do aset a i (← f i))
      = .ok a := by
    obtain ⟨s, hs, _⟩ := forRange_inv (n := i) (init := fun _ : Fin n => init)
      (body := fun i (a : Fin n → α) => do aset a i (← f i)) (fun _ _ => True) trivial
      (by
        intro j hj s _
        obtain ⟨a, ha⟩ := hok j hj
        rw [ha, Res.ok_bind, aset_lt _ (by omega)]
        exact ⟨_, rfl, trivial⟩)
    exact ⟨s, hs⟩
  obtain ⟨a, ha⟩ := hpre
  have hpost : ∀ m, i < m → 
      (∀ e, f i = .err e →
        forRange m (fun _ => init) (fun i (a : Fin n → α) => do aset a i (← f i)) = .err e) ∧
      (f i = .panic →
        forRange m (fun _ => init) (fun i (a : Fin n → α) => do aset a i (← f i)) = .panic) := by
    intro m hm
    induction m with
    | zero => omega
    | succ m ih =>
      by_cases hmi : m = i
      · subst hmi
        constructor
        · intro e he; rw [forRange_succ, ha, Res.ok_bind, he]; rfl
        · intro he; rw [forRange_succ, ha, Res.ok_bind, he]; rfl
      · obtain ⟨h1, h2⟩ := ih (by omega)
        constructor
        · intro e he; rw [forRange_succ, h1 e he]; rfl
        · intro he; rw [forRange_succ, h2 he]; rfl
  exact hpost n hi

theorem axisLoop_congr (n : Nat) (init : α) (f f' : Nat → Res α)
    (h : ∀ k : Fin n, f k = f' k) : axisLoop n init f = axisLoop n init f' := by
  unfold axisLoop
  apply forRange_congr
  intro i hi s
  rw [h ⟨i, hi⟩]

/-- Trichotomy of the axis loop: it succeeds with all axes' results, or it reports the
first failing axis. -/
theorem axisLoop_cases (n : Nat) (init : α) (f : Nat → Res α) :
    (∃ a : Fin n → α, (∀ k : Fin n, f k = .ok (a k)) ∧ axisLoop n init f = .ok a) ∨
    (∃ i : Fin n, ∃ e, (∀ j : Fin n, j < i → ∃ a, f j = .ok a) ∧ f i = .err e ∧
      axisLoop n init f = .err e) ∨
    (∃ i : Fin n, (∀ j : Fin n, j < i → ∃ a, f j = .ok a) ∧ f i = .panic ∧
      axisLoop n init f = .panic) := by
  by_cases h : ∀ k : Fin n, ∃ a, f k = .ok a
  · left
    choose a ha using h
    exact ⟨a, ha, axisLoop_ok n init f a ha⟩
  · right
    push Not at h
    have hex : ∃ i, ∃ hi : i < n, ∀ a, f i ≠ .ok a := by
      obtain ⟨k, hk⟩ := h; exact ⟨k.val, k.isLt, hk⟩
    classical
    obtain ⟨hi, hne⟩ := Nat.find_spec hex
    set i := Nat.find hex
    have hmin : ∀ j < i, ∃ a, f j = .ok a := by
      intro j hj
      have := Nat.find_min hex hj
      push Not at this
      exact this (by omega)
    have hf := axisLoop_fail n init f i hi hmin
    cases hfi : f i with
    | ok a => exact absurd hfi (hne a)
    | err e =>
      left
      exact ⟨⟨i, hi⟩, e, fun j hj => hmin j hj, hfi, hf.1 e hfi⟩
    | panic =>
      right
      exact ⟨⟨i, hi⟩, fun j hj => hmin j hj, hfi, hf.2 hfi⟩

/-! ### Products -/

theorem uprodFrom_ok (ds : List Nat) : ∀ acc n, uprodFrom acc ds = .ok n →
    n = acc * ds.prod := by
  induction ds with
  | nil => intro acc n h; simp [uprodFrom] at h; simp [h]
  | cons d ds ih =>
    intro acc n h
    simp only [uprodFrom, umul] at h
    split at h
    · rw [Res.ok_bind] at h
      rw [ih _ _ h, List.prod_cons, mul_assoc]
    · simp at h

theorem uprodFrom_le (ds : List Nat) : ∀ acc n, acc ≤ usizeMax → uprodFrom acc ds = .ok n →
    n ≤ usizeMax := by
  induction ds with
  | nil => intro acc n h0 h; simp [uprodFrom] at h; omega
  | cons d ds ih =>
    intro acc n h0 h
    simp only [uprodFrom, umul] at h
    split at h
    · next hle => rw [Res.ok_bind] at h; exact ih _ _ hle h
    · simp at h

theorem uprod_ok {ds : List Nat} {n : Nat} (h : uprod ds = .ok n) :
    n = ds.prod ∧ n ≤ usizeMax :=
  ⟨by simpa using uprodFrom_ok ds 1 n h, uprodFrom_le ds 1 n (by decide) h⟩

theorem uprodFrom_eq (ds : List Nat) : ∀ acc, 0 < acc → (∀ d ∈ ds, 0 < d) →
    acc * ds.prod ≤ usizeMax → uprodFrom acc ds = .ok (acc * ds.prod) := by
  induction ds with
  | nil => intro acc _ _ _; simp [uprodFrom]
  | cons d ds ih =>
    intro acc ha hpos hle
    rw [List.prod_cons, ← mul_assoc] at hle
    have hd : 0 < d := hpos d (by simp)
    have hds : 0 < ds.prod := List.prod_pos (fun x hx => hpos x (by simp [hx]))
    simp only [uprodFrom]
    rw [umul_ok ((Nat.le_mul_of_pos_right _ hds).trans hle), Res.ok_bind,
      ih _ (Nat.mul_pos ha hd) (fun x hx => hpos x (by simp [hx])) hle, List.prod_cons, mul_assoc]

theorem uprod_eq {ds : List Nat} (hpos : ∀ d ∈ ds, 0 < d) (hle : ds.prod ≤ usizeMax) :
    uprod ds = .ok ds.prod := by
  have := uprodFrom_eq ds 1 (by omega) hpos (by simpa using hle)
  simpa [uprod] using this

end Interpn
