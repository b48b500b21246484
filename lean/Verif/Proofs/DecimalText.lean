/-
What `FormattedFPDecimal` writes into its arrays, as plain digit strings.
-/
import Verif.Model.FormattedFPDecimal
import Verif.Proofs.Digits
import Verif.Spec.CPrintf
import Mathlib.Tactic.Ring
import Mathlib.Tactic.Linarith

namespace FastPrintf.FormattedFPDecimal

open MathUtils Spec

/-- The last `k` decimal digits of `x`. -/
def digitsOf : (k : Nat) → (x : Nat) → JStr
  | 0, _ => []
  | k + 1, x => digitsOf k (x / 10) ++ [48 + x % 10]

@[simp] theorem digitsOf_length (k x : Nat) : (digitsOf k x).length = k := by
  induction k generalizing x with
  | zero => rfl
  | succ k ih => simp [digitsOf, ih]

theorem digitsOf_isDigit (k x : Nat) : ∀ c ∈ digitsOf k x, IsDigitIn 10 c := by
  induction k generalizing x with
  | zero => intro c hc; cases hc
  | succ k ih =>
    intro c hc
    simp only [digitsOf, List.mem_append, List.mem_singleton] at hc
    rcases hc with hc | rfl
    · exact ih _ c hc
    · unfold IsDigitIn digitVal
      have : x % 10 < 10 := Nat.mod_lt _ (by omega)
      rw [if_pos (by omega)]
      omega

theorem valueIn_singleton (b c : Nat) : valueIn b [c] = digitVal c := by simp [valueIn]

theorem digitVal_48 {d : Nat} (h : d < 10) : digitVal (48 + d) = d := by
  unfold digitVal; rw [if_pos (by omega)]; omega

theorem valueIn_digitsOf (k x : Nat) : valueIn 10 (digitsOf k x) = x % 10 ^ k := by
  induction k generalizing x with
  | zero => simp [digitsOf, valueIn, Nat.mod_one]
  | succ k ih =>
    rw [digitsOf, valueIn_append, ih, valueIn_singleton, digitVal_48 (Nat.mod_lt _ (by omega)),
      List.length_singleton, pow_one, pow_succ', Nat.mod_mul]
    ring

theorem digitsOf_append (a b x : Nat) : digitsOf (a + b) x = digitsOf a (x / 10 ^ b) ++ digitsOf b x := by
  induction b generalizing x with
  | zero => simp [digitsOf]
  | succ b ih =>
    rw [← Nat.add_assoc, digitsOf, ih, digitsOf, List.append_assoc, Nat.div_div_eq_div_mul, pow_succ']

theorem digitsOf_zero (k : Nat) : digitsOf k 0 = List.replicate k 48 := by
  induction k with
  | zero => rfl
  | succ k ih => rw [digitsOf, Nat.zero_div, ih, List.replicate_succ']

theorem digitsOf_mul (k j x : Nat) :
    digitsOf (k + j) (x * 10 ^ j) = digitsOf k x ++ List.replicate j 48 := by
  rw [digitsOf_append, Nat.mul_div_cancel _ (by positivity)]
  congr 1
  induction j generalizing x with
  | zero => rfl
  | succ j ih =>
    rw [digitsOf, pow_succ, ← mul_assoc, Nat.mul_div_cancel _ (by omega), ih, Nat.mul_mod_left,
      List.replicate_succ']

theorem digitsOf_mod (k x : Nat) : digitsOf k (x % 10 ^ k) = digitsOf k x := by
  apply valueIn_inj_length (b := 10) (by omega) (digitsOf_isDigit _ _) (digitsOf_isDigit _ _) (by simp)
  rw [valueIn_digitsOf, valueIn_digitsOf, Nat.mod_mod]

theorem digitsOf_small {k n x : Nat} (h : x < 10 ^ n) (hk : n ≤ k) :
    digitsOf k x = List.replicate (k - n) 48 ++ digitsOf n x := by
  obtain ⟨j, rfl⟩ : ∃ j, k = j + n := ⟨k - n, by omega⟩
  rw [digitsOf_append, Nat.div_eq_of_lt h, digitsOf_zero, Nat.add_sub_cancel]

/-- The shortest numeral. -/
theorem toRadix_eq_digitsOf {k v : Nat} (h1 : 10 ^ k ≤ v) (h2 : v < 10 ^ (k + 1)) :
    toRadix 10 v = digitsOf (k + 1) v := by
  have hn : IsNumeral 10 (digitsOf (k + 1) v) := ⟨by
    intro h; have := congrArg List.length h; simp at this, digitsOf_isDigit _ _⟩
  have hz : NoExtraZero (digitsOf (k + 1) v) := by
    right
    rw [Nat.add_comm, digitsOf_append]
    have e : v / 10 ^ k < 10 := by rw [Nat.div_lt_iff_lt_mul (by positivity), ← pow_succ']; exact h2
    have e1 : 1 ≤ v / 10 ^ k := by rwa [Nat.le_div_iff_mul_le (by positivity), one_mul]
    simp only [digitsOf, List.nil_append, List.cons_append, List.head?_cons, Nat.mod_eq_of_lt e]
    intro h
    have h : 48 + v / 10 ^ k = 48 := by injection h
    omega
  have := toRadix_unique (by omega) (by omega) hn hz
  rwa [valueIn_digitsOf, Nat.mod_eq_of_lt h2] at this

/-! ### The arrays -/

theorem setAt_ok {pre post : JStr} {c d : JChar} {i : Int} (hi : i = pre.length) :
    setAt (pre ++ c :: post) i d = .ok (pre ++ d :: post) := by
  unfold setAt
  rw [if_neg (by simp only [List.length_append, List.length_cons]; push_cast; omega), hi]
  simp

theorem toDigit_eq {d : Nat} (h : d < 10) : toDigit d = 48 + d := by
  unfold toDigit; omega

theorem fillWithDigits_ok (pre : JStr) (k x : Nat) (mid post : JStr) (hm : mid.length = k) {i : Int}
    (hi : i = pre.length) :
    fillWithDigits i k x (pre ++ mid ++ post) = .ok (x / 10 ^ k, pre ++ digitsOf k x ++ post) := by
  induction k generalizing x mid post with
  | zero =>
    obtain rfl : mid = [] := List.length_eq_zero_iff.1 hm
    simp [fillWithDigits, digitsOf]
  | succ k ih =>
    obtain ⟨mid', c, rfl⟩ : ∃ mid' c, mid = mid' ++ [c] := by
      have : mid ≠ [] := by rintro rfl; simp at hm
      exact ⟨mid.dropLast, mid.getLast this, (List.dropLast_append_getLast this).symm⟩
    simp only [List.length_append, List.length_singleton] at hm
    have e1 : pre ++ (mid' ++ [c]) ++ post = (pre ++ mid') ++ c :: post := by simp
    have e2 : x - x / 10 * 10 = x % 10 := by omega
    rw [fillWithDigits, e1, setAt_ok (by simp only [List.length_append]; push_cast; omega), bind_ok, e2,
      toDigit_eq (Nat.mod_lt _ (by omega))]
    have := ih (x / 10) mid' ((48 + x % 10) :: post) (by omega)
    rw [this, Nat.div_div_eq_div_mul, ← pow_succ']
    simp [digitsOf]

theorem fillWithZeros_ok (pre : JStr) (k : Nat) (mid post : JStr) (hm : mid.length = k) {i : Int}
    (hi : i = pre.length) :
    fillWithZeros i k (pre ++ mid ++ post) = .ok (pre ++ List.replicate k 48 ++ post) := by
  induction k generalizing mid post with
  | zero =>
    obtain rfl : mid = [] := List.length_eq_zero_iff.1 hm
    simp [fillWithZeros]
  | succ k ih =>
    obtain ⟨mid', c, rfl⟩ : ∃ mid' c, mid = mid' ++ [c] := by
      have : mid ≠ [] := by rintro rfl; simp at hm
      exact ⟨mid.dropLast, mid.getLast this, (List.dropLast_append_getLast this).symm⟩
    simp only [List.length_append, List.length_singleton] at hm
    have e1 : pre ++ (mid' ++ [c]) ++ post = (pre ++ mid') ++ c :: post := by simp
    rw [fillWithZeros, e1, setAt_ok (by simp only [List.length_append]; push_cast; omega), bind_ok]
    have := ih mid' (48 :: post) (by omega)
    rw [this, List.replicate_succ']
    simp

theorem newArray_ok {n : Int} {k : Nat} (h : n = k) : newArray n = .ok (List.replicate k 0) := by
  unfold newArray
  rw [if_neg (by omega), h]; rfl

/-- The decimals `round` produces. -/
structure Dec.Ok (x : Dec) (f n : Nat) (e : Int) : Prop where
  eq : x = { f := f, e := e, n := n }
  pos : 1 ≤ n
  lt : f < 10 ^ n
  lead : 10 ^ (n - 1) ≤ f ∨ (f = 0 ∧ n = 1 ∧ e = 0)

/-- The text of `plainChars`: nonnegative exponent. -/
theorem plainChars_int {x : Dec} {f n : Nat} {e : Int} (h : x.Ok f n e) (he : 0 ≤ e) :
    plainChars x = .ok (toRadix 10 (f * 10 ^ e.toNat)) := by
  obtain ⟨rfl, h1, h2, h3⟩ := h
  unfold plainChars
  rw [if_pos he]
  unfold plainCharsPureInteger
  obtain ⟨m, rfl⟩ := Int.eq_ofNat_of_zero_le he
  simp only [Int.toNat_natCast]
  rw [newArray_ok (k := n + m) (by push_cast; rfl), bind_ok]
  have z := fillWithZeros_ok (List.replicate n 0) m (List.replicate m 0) [] (by simp) (i := n) (by simp)
  rw [List.append_nil, List.append_nil, List.replicate_append_replicate] at z
  rw [z, bind_ok]
  have d := fillWithDigits_ok [] n f (List.replicate n 0) (List.replicate m 48) (by simp) (i := 0) (by simp)
  rw [List.nil_append, List.nil_append] at d
  rw [d]
  simp only [bind_ok, pure_eq_ok]
  congr 1
  rcases h3 with h3 | ⟨rfl, rfl, h4⟩
  · obtain ⟨n', rfl⟩ : ∃ n', n = n' + 1 := ⟨n - 1, by omega⟩
    rw [← digitsOf_mul, show n' + 1 + m = (n' + m) + 1 by omega]
    refine (toRadix_eq_digitsOf ?_ ?_).symm
    · rw [pow_add]; exact Nat.mul_le_mul_right _ (by simpa using h3)
    · rw [show n' + m + 1 = n' + 1 + m by omega, pow_add]
      exact Nat.mul_lt_mul_of_pos_right h2 (by positivity)
  · obtain rfl : m = 0 := by omega
    decide

/-- The text of `plainChars`: negative exponent. -/
theorem plainChars_frac {x : Dec} {f n : Nat} {e : Int} (h : x.Ok f n e) {m : Nat} (hm : e = -(m : Int))
    (hm0 : 0 < m) :
    plainChars x = .ok (toRadix 10 (f / 10 ^ m) ++ ch! '.' :: digitsOf m f) := by
  obtain ⟨rfl, h1, h2, h3⟩ := h
  have h3' : 10 ^ (n - 1) ≤ f := by
    rcases h3 with h | ⟨_, _, h⟩
    · exact h
    · omega
  unfold plainChars
  dsimp only
  rw [if_neg (by omega)]
  by_cases hlt : m < n
  · rw [if_pos (by omega)]
    unfold plainCharsMixed
    obtain ⟨j, rfl⟩ : ∃ j, n = j + 1 + m := ⟨n - m - 1, by omega⟩
    have e1 : (-e).toNat = m := by omega
    have e2 : (((j + 1 + m : Nat) : Int) + e).toNat = j + 1 := by omega
    simp only [e1, e2]
    rw [newArray_ok (k := (j + 1) + 1 + m) (by push_cast; omega), bind_ok]
    have d := fillWithDigits_ok (List.replicate (j + 2) 0) m f (List.replicate m 0) [] (by simp)
      (i := ((j + 1 + m : Nat) : Int) + 1 + e) (by simp; omega)
    rw [List.append_nil, List.append_nil, List.replicate_append_replicate] at d
    rw [show j + 1 + 1 + m = j + 2 + m by omega, d]
    simp only [bind_ok]
    have s : List.replicate (j + 2) 0 ++ digitsOf m f = List.replicate (j + 1) 0 ++ 0 :: digitsOf m f := by
      rw [show j + 2 = (j + 1) + 1 by omega, List.replicate_succ']; simp
    rw [s, setAt_ok (by simp; omega), bind_ok]
    have d2 := fillWithDigits_ok [] (j + 1) (f / 10 ^ m) (List.replicate (j + 1) 0)
      (ch! '.' :: digitsOf m f) (by simp) (i := 0) (by simp)
    rw [List.nil_append, List.nil_append] at d2
    rw [d2]
    simp only [bind_ok, pure_eq_ok]
    congr 2
    refine (toRadix_eq_digitsOf ?_ ?_).symm
    · rw [Nat.le_div_iff_mul_le (by positivity), ← pow_add]
      rwa [show j + m = j + 1 + m - 1 by omega]
    · rw [Nat.div_lt_iff_lt_mul (by positivity), ← pow_add]; exact h2
  · rw [if_neg (by omega)]
    unfold plainCharsPureFraction
    have hf : f < 10 ^ m := lt_of_lt_of_le h2 (Nat.pow_le_pow_right (by omega) (by omega))
    obtain ⟨j, rfl⟩ : ∃ j, m = j + n := ⟨m - n, by omega⟩
    have e1 : ((n : Int)).toNat = n := rfl
    have e2 : (2 - e - (n : Int)).toNat = j + 2 := by omega
    simp only [e1, e2]
    rw [newArray_ok (k := (j + 2) + n) (by push_cast; omega), bind_ok]
    have d := fillWithDigits_ok (List.replicate (j + 2) 0) n f (List.replicate n 0) [] (by simp)
      (i := 2 - e - (n : Int)) (by simp; omega)
    rw [List.append_nil, List.append_nil, List.replicate_append_replicate] at d
    rw [d]
    simp only [bind_ok]
    have z := fillWithZeros_ok [] (j + 2) (List.replicate (j + 2) 0) (digitsOf n f) (by simp) (i := 0) (by simp)
    rw [List.nil_append, List.nil_append] at z
    rw [z, bind_ok]
    have s : List.replicate (j + 2) 48 ++ digitsOf n f = [48] ++ 48 :: (List.replicate j 48 ++ digitsOf n f) := by
      rw [List.replicate_succ, List.replicate_succ]; simp
    rw [s, setAt_ok (by simp), Nat.div_eq_of_lt hf, digitsOf_small h2 (by omega : n ≤ j + n),
      Nat.add_sub_cancel]
    rfl

/-! ### Rounding -/

/-- `f * 10^(e+p)` rounded half up. -/
def roundNat (f : Nat) (s : Int) : Nat :=
  if 0 ≤ s then f * 10 ^ s.toNat else (f + 10 ^ (-s).toNat / 2) / 10 ^ (-s).toNat

theorem pow10_ok {k : Nat} (h : k ≤ 17) : pow10 (k : Int) = .ok (10 ^ k) := by
  have table : ∀ k : Fin 18, pow10 (k.val : Int) = .ok (10 ^ k.val) := by decide +kernel
  exact table ⟨k, by omega⟩

/-- **`round` rounds half up.**  `f` has `n` digits; `pp = n + s` digits are kept, so `s` is the
number of places kept relative to the exponent `e`. -/
theorem round_ok {f n : Nat} {e s : Int} (hn : 1 ≤ n) (hn17 : n ≤ 17) (h1 : 10 ^ (n - 1) ≤ f)
    (h2 : f < 10 ^ n) :
    ∃ x f' n' e', round { f := f, e := e, n := n } (n + s) = .ok x ∧ x.Ok f' n' e' ∧
      (0 ≤ s → f' = f ∧ n' = n ∧ e' = e) ∧
      (s < 0 → (e - s ≤ e' ∧ f' * 10 ^ (e' - (e - s)).toNat = roundNat f s) ∨ (f' = 0 ∧ e' = 0 ∧ roundNat f s = 0)) ∧
      (1 ≤ (n : Int) + s → f' ≠ 0 ∧ (n' : Int) ≤ n + s ∧ (s < 0 → (n' : Int) = n + s)) := by
  unfold round
  dsimp only
  by_cases hneg : (n : Int) + s < 0
  · rw [if_pos (.inr hneg)]
    refine ⟨_, 0, 1, 0, rfl, ⟨rfl, by omega, by norm_num, .inr ⟨rfl, rfl, rfl⟩⟩, by omega, fun _ => .inr ⟨rfl, rfl, ?_⟩, by omega⟩
    unfold roundNat
    rw [if_neg (by omega)]
    apply Nat.div_eq_of_lt
    obtain ⟨k, hk⟩ : ∃ k, (-s).toNat = (n + k) + 1 := ⟨(-s).toNat - n - 1, by omega⟩
    rw [hk, pow_succ]
    have : 10 ^ n ≤ 10 ^ (n + k) := Nat.pow_le_pow_right (by omega) (by omega)
    omega
  · rw [if_neg (by push Not; exact ⟨by omega, by omega⟩)]
    by_cases hge : (n : Int) + s ≥ n
    · rw [if_pos hge]
      refine ⟨_, f, n, e, rfl, ⟨rfl, hn, h2, .inl h1⟩, fun _ => ⟨rfl, rfl, rfl⟩, by omega, fun _ => ⟨?_, by omega, by omega⟩⟩
      have : 0 < 10 ^ (n - 1) := by positivity
      omega
    · rw [if_neg hge]
      obtain ⟨k, hk⟩ : ∃ k : Nat, s = -(k : Int) := ⟨(-s).toNat, by omega⟩
      obtain ⟨j, hj⟩ : ∃ j : Nat, n = j + k := ⟨n - k, by omega⟩
      have hk0 : 0 < k := by omega
      have e1 : (n : Int) - (n + s) = k := by omega
      have e2 : (n : Int) + s = j := by omega
      rw [e1, e2, pow10_ok (by omega), bind_ok]
      obtain ⟨F, hF⟩ : ∃ F, F = (f + 10 ^ k / 2) / 10 ^ k := ⟨_, rfl⟩
      rw [← hF]
      have hr : roundNat f s = F := by
        unfold roundNat; rw [if_neg (by omega), hF, hk]; simp
      have hp : 0 < 10 ^ k := by positivity
      have hev : 10 ^ k / 2 < 10 ^ k := by omega
      have hFle : F ≤ 10 ^ j := by
        rw [hF, ← Nat.lt_succ_iff, Nat.div_lt_iff_lt_mul hp, Nat.succ_mul, ← pow_add, ← hj]
        omega
      by_cases hj0 : j = 0
      · rw [if_pos (by omega)]
        refine ⟨_, F, 1, if F = 0 then 0 else e + k, rfl, ⟨rfl, by omega, ?_, ?_⟩, by omega, fun _ => ?_, by omega⟩
        · rw [hj0] at hFle; omega
        · by_cases h0 : F = 0
          · right; simp [h0]
          · left; simp; omega
        · by_cases h0 : F = 0
          · right; simp [h0, hr]
          · left; rw [if_neg h0, hr]
            refine ⟨by omega, ?_⟩
            rw [show (e + (k : Int) - (e - s)).toNat = 0 by omega]; simp
      · rw [if_neg (by omega), pow10_ok (by omega), bind_ok]
        obtain ⟨i, rfl⟩ : ∃ i, j = i + 1 := ⟨j - 1, by omega⟩
        have hFge : 10 ^ i ≤ F := by
          rw [hF, Nat.le_div_iff_mul_le hp, ← pow_add]
          rw [show i + k = n - 1 by omega]
          omega
        by_cases hc : F = 10 ^ (i + 1)
        · rw [if_pos hc]
          have hd : F / 10 = 10 ^ i := by rw [hc, pow_succ]; omega
          refine ⟨_, 10 ^ i, i + 1, e + k + 1, ?_, ⟨rfl, by omega, ?_, .inl (by simp)⟩, by omega, fun _ => .inl ⟨by omega, ?_⟩, fun _ => ⟨by positivity, by omega, by omega⟩⟩
          · simp only [pure_eq_ok, hd]
          · exact Nat.pow_lt_pow_right (by omega) (by omega)
          · rw [hr, hc, show (e + (k : Int) + 1 - (e - s)).toNat = 1 by omega, pow_one, ← pow_succ]
        · rw [if_neg hc]
          refine ⟨_, F, i + 1, e + k, rfl, ⟨rfl, by omega, by omega, .inl (by simpa using hFge)⟩, by omega, fun _ => .inl ⟨by omega, ?_⟩, fun _ => ⟨?_, by omega, by omega⟩⟩
          · rw [hr, show (e + (k : Int) - (e - s)).toNat = 0 by omega]; simp
          · have : 0 < 10 ^ i := by positivity
            omega

end FastPrintf.FormattedFPDecimal
