/-
What `FormattedFPDecimal` yields for a decimal `f * 10^e`, in terms of the rounded value.
-/
import Verif.Proofs.DecimalText
import Verif.Proofs.DecimalShape
import Mathlib.Algebra.Order.Floor.Semifield
import Mathlib.Tactic.LinearCombination

namespace FastPrintf.FormattedFPDecimal

open MathUtils Spec SeqFormatter

/-! ### Rounding -/

theorem halfUp_eq (f : Nat) (e p : Int) : halfUp ((f : ℚ) * 10 ^ e) p = roundNat f (e + p) := by
  have h10 : (10 : ℚ) ≠ 0 := by norm_num
  unfold halfUp roundNat
  rw [mul_assoc, ← zpow_add₀ h10]
  generalize e + p = s
  by_cases hs : 0 ≤ s
  · rw [if_pos hs]
    obtain ⟨k, rfl⟩ := Int.eq_ofNat_of_zero_le hs
    rw [Int.toNat_natCast, zpow_natCast]
    have : ((f : ℚ) * 10 ^ k + 1 / 2) = ((f * 10 ^ k : Nat) : ℚ) + 1 / 2 := by push_cast; ring
    rw [this, Nat.floor_eq_iff (by positivity)]
    constructor <;> linarith
  · rw [if_neg hs]
    obtain ⟨k, hk⟩ : ∃ k : Nat, s = -((k + 1 : Nat) : Int) := ⟨(-s).toNat - 1, by omega⟩
    subst hk
    rw [neg_neg, Int.toNat_natCast, zpow_neg, zpow_natCast]
    have h2 : 10 ^ (k + 1) = 2 * (10 ^ (k + 1) / 2) := by
      rw [pow_succ]; omega
    have : (f : ℚ) * (10 ^ (k + 1))⁻¹ + 1 / 2 =
        ((f + 10 ^ (k + 1) / 2 : Nat) : ℚ) / ((10 ^ (k + 1) : Nat) : ℚ) := by
      have h3 : (((10 ^ (k + 1) / 2 : Nat)) : ℚ) = 10 ^ (k + 1) / 2 := by
        have := congrArg (fun n : Nat => (n : ℚ)) h2
        push_cast at this
        rw [this]; ring
      push_cast at h3 ⊢
      rw [h3]; field_simp
    rw [this, Nat.floor_div_eq_div]

/-! ### The plain form -/

theorem toRadix_lead {k v : Nat} (h1 : 10 ^ k ≤ v) (h2 : v < 10 ^ (k + 1)) :
    ∃ c t, digitsOf (k + 1) v = c :: t ∧ 49 ≤ c ∧ c ≤ 57 ∧ t.length = k ∧ 46 ∉ t := by
  have e : v / 10 ^ k < 10 := by rw [Nat.div_lt_iff_lt_mul (by positivity), ← pow_succ']; exact h2
  have e1 : 1 ≤ v / 10 ^ k := by rwa [Nat.le_div_iff_mul_le (by positivity), one_mul]
  refine ⟨48 + v / 10 ^ k, digitsOf k v, ?_, by omega, by omega, by simp,
    fun hc => (digitsOf_isDigit _ _ _ hc).ne_dot rfl⟩
  rw [Nat.add_comm k 1, digitsOf_append]
  simp [digitsOf, Nat.mod_eq_of_lt e]

theorem countFrom_digits {k v : Nat} (h1 : 10 ^ k ≤ v) (h2 : v < 10 ^ (k + 1)) (t : JStr) :
    countFrom (digitsOf (k + 1) v ++ t) false = k + 1 + countFrom t true := by
  obtain ⟨c, s, hs, h3, h4, h5, h6⟩ := toRadix_lead h1 h2
  rw [hs, List.cons_append, countFrom_lead h3 h4, countFrom_append_true h6, h5]
  omega

/-- The plain form of a decimal: its digits, and the digits after the point. -/
theorem plainChars_written {x : Dec} {f n : Nat} {e : Int} (h : x.Ok f n e) :
    ∃ t ip fp, plainChars x = .ok t ∧ Written t ip fp ∧ NoExtraZero ip ∧
      (fp.length : Int) = max 0 (-e) ∧ valueIn 10 (ip ++ fp) = f * 10 ^ e.toNat ∧
      (0 ≤ e → t = ip) ∧ (f ≠ 0 → (sigDigits t : Int) = max (n : Int) (n + e)) := by
  by_cases he : 0 ≤ e
  · refine ⟨_, toRadix 10 (f * 10 ^ e.toNat), [], plainChars_int h he,
      ⟨toRadix_isNumeral (by omega) (by omega) _, by simp, .inr ⟨rfl, rfl⟩⟩,
      toRadix_minimal (by omega) _, by simp; omega, ?_, fun _ => rfl, ?_⟩
    · rw [List.append_nil, valueIn_toRadix (by omega) (by omega)]
    · intro hf
      obtain ⟨h0, h1, h2, h3⟩ := h
      replace h3 : 10 ^ (n - 1) ≤ f := by
        rcases h3 with h | ⟨h, _⟩
        · exact h
        · exact absurd h hf
      obtain ⟨j, rfl⟩ : ∃ j, n = j + 1 := ⟨n - 1, by omega⟩
      obtain ⟨m, rfl⟩ := Int.eq_ofNat_of_zero_le he
      rw [Int.toNat_natCast]
      have a1 : 10 ^ (j + m) ≤ f * 10 ^ m := by rw [pow_add]; exact Nat.mul_le_mul_right _ (by simpa using h3)
      have a2 : f * 10 ^ m < 10 ^ (j + m + 1) := by
        rw [show j + m + 1 = j + 1 + m by omega, pow_add]
        exact Nat.mul_lt_mul_of_pos_right h2 (by positivity)
      have := countFrom_digits a1 a2 []
      rw [List.append_nil] at this
      rw [toRadix_eq_digitsOf a1 a2, sigDigits_pos (by omega), this]
      simp only [countFrom]
      push_cast; omega
  · obtain ⟨m, hm⟩ : ∃ m : Nat, e = -(m : Int) := ⟨(-e).toNat, by omega⟩
    have hm0 : 0 < m := by omega
    refine ⟨_, toRadix 10 (f / 10 ^ m), digitsOf m f, plainChars_frac h hm hm0,
      ⟨toRadix_isNumeral (by omega) (by omega) _, digitsOf_isDigit _ _, .inl rfl⟩,
      toRadix_minimal (by omega) _, by simp; omega, ?_, fun h => absurd h he, ?_⟩
    · rw [valueIn_append, valueIn_toRadix (by omega) (by omega), valueIn_digitsOf, digitsOf_length,
        show e.toNat = 0 by omega]
      have := Nat.div_add_mod f (10 ^ m)
      rw [pow_zero, mul_one]
      linarith
    · intro hf
      obtain ⟨h0, h1, h2, h3⟩ := h
      have h3 : 10 ^ (n - 1) ≤ f := by
        rcases h3 with h | ⟨h, _⟩
        · exact h
        · exact absurd h hf
      have hnd : 46 ∉ digitsOf m f := fun hc => (digitsOf_isDigit _ _ _ hc).ne_dot rfl
      by_cases hlt : m < n
      · obtain ⟨j, rfl⟩ : ∃ j, n = j + 1 + m := ⟨n - m - 1, by omega⟩
        have a1 : 10 ^ j ≤ f / 10 ^ m := by
          rw [Nat.le_div_iff_mul_le (by positivity), ← pow_add]
          rwa [show j + m = j + 1 + m - 1 by omega]
        have a2 : f / 10 ^ m < 10 ^ (j + 1) := by
          rw [Nat.div_lt_iff_lt_mul (by positivity), ← pow_add]; exact h2
        have := countFrom_digits a1 a2 (46 :: digitsOf m f)
        rw [toRadix_eq_digitsOf a1 a2, sigDigits_pos (by omega), this, countFrom_dot,
          countFrom_true hnd, digitsOf_length]
        push_cast; omega
      · have hfm : f < 10 ^ m := lt_of_lt_of_le h2 (Nat.pow_le_pow_right (by omega) (by omega))
        obtain ⟨j, rfl⟩ : ∃ j, n = j + 1 := ⟨n - 1, by omega⟩
        have c0 := countFrom_digits (by simpa using h3) h2 []
        rw [List.append_nil] at c0
        have c1 : countFrom (toRadix 10 (f / 10 ^ m) ++ 46 :: digitsOf m f) false = j + 1 := by
          rw [Nat.div_eq_of_lt hfm, show toRadix 10 0 = List.replicate 1 48 from by decide, countFrom_zeros,
            countFrom_dot, digitsOf_small h2 (by omega : j + 1 ≤ m), countFrom_zeros, c0]
          rfl
        rw [sigDigits_pos (by omega), c1]
        omega

/-- **The plain form, padded to `p` places.** -/
theorem plainChars_fixed {x : Dec} {f n : Nat} {e : Int} (h : x.Ok f n e) {p : Nat} (hp : 0 ≤ e + p)
    (alt : Bool) :
    ∃ t, plainChars x = .ok t ∧ FixedText (f * 10 ^ (e + p).toNat) p alt (fracText t p alt) := by
  obtain ⟨t, ip, fp, h1, h2, h3, h4, h5, h6, -⟩ := plainChars_written h
  refine ⟨t, h1, ?_⟩
  have := h2.fixed h3 (p := p) (by omega) ?_ alt
  · rw [h5, mul_assoc, ← pow_add, show e.toNat + (p - fp.length) = (e + p).toNat by omega] at this
    exact this
  · by_cases he : 0 ≤ e
    · exact .inr (h6 he)
    · left; omega

/-- The plain form without trailing zeros. -/
theorem plainChars_minimal {x : Dec} {f n : Nat} {e : Int} (h : x.Ok f n e) :
    ∃ t, plainChars x = .ok t ∧ MinimalText ((f : ℚ) * 10 ^ e) (stripText t) := by
  obtain ⟨t, ip, fp, h1, h2, h3, h4, h5, h6, -⟩ := plainChars_written h
  refine ⟨t, h1, h2.minimal h3 ?_⟩
  rw [h5, mul_assoc, ← zpow_natCast (10 : ℚ) fp.length, ← zpow_add₀ (by norm_num), h4]
  push_cast
  rw [← zpow_natCast]
  congr 2; omega

/-- The plain form padded to `P` significant digits. -/
theorem plainChars_padded {x : Dec} {f n : Nat} {e : Int} (h : x.Ok f n e) (hf : f ≠ 0) {P : Nat}
    (hn : n ≤ P) (hP : n + e ≤ P) :
    ∃ t, plainChars x = .ok t ∧
      FixedText (f * 10 ^ (P - n)) ((P : Int) - n - e).toNat true (padText t P) := by
  obtain ⟨t, ip, fp, h1, h2, h3, h4, h5, h6, h7⟩ := plainChars_written h
  refine ⟨t, h1, ?_⟩
  have hs := h7 hf
  unfold padText
  by_cases he : 0 ≤ e
  · obtain rfl := h6 he
    rw [if_neg h2.no_dot]
    obtain rfl : fp = [] := List.length_eq_zero_iff.1 (by omega)
    have := fixed_point h2.int h3 (fp := []) (by simp) (P - sigDigits t) true (by simp)
    rw [h5, mul_assoc, ← pow_add] at this
    rw [show e.toNat + (P - sigDigits t) = P - n by omega] at this
    rw [show ((P : Int) - n - e).toNat = 0 + (P - sigDigits t) by omega]
    simpa using this
  · have hne : t ≠ ip := by
      rintro rfl
      rcases h2.eq with h | ⟨_, h⟩
      · have := congrArg List.length h; simp at this
      · rw [h] at h4; simp at h4; omega
    have heq : t = ip ++ 46 :: fp := by
      rcases h2.eq with h | ⟨h, _⟩
      · exact h
      · exact absurd h hne
    have hs' : sigDigits t = n := by omega
    rw [hs', if_pos (by rw [heq]; simp), heq]
    have := fixed_point h2.int h3 h2.digits (P - n) true (by simp)
    rw [h5, show e.toNat = 0 by omega, pow_zero, mul_one, show fp.length + (P - n) = ((P : Int) - n - e).toNat by omega] at this
    simpa using this

/-! ### The scientific form -/

theorem expChars_ok {x : Dec} {er : Int} (he : exponentRounded x = er) (h1 : -999 ≤ er) (h2 : er ≤ 999) :
    ∃ s, expChars x = .ok s ∧ ExponentText er s := by
  have table : ∀ a : Fin 1000, ∀ c : Bool,
      (do
        let a0 ← newArray (if a.val ≥ 100 then 4 else 3)
        let a0 ← if a.val ≥ 100 then setAt a0 3 (toDigit (a.val - 10 * (a.val / 10))) else pure a0
        let aer := if a.val ≥ 100 then a.val / 10 else a.val
        let q := aer / 10
        let a0 ← setAt a0 2 (toDigit (aer - 10 * q))
        let a0 ← setAt a0 1 (toDigit q)
        setAt a0 0 (if c then ch! '+' else ch! '-')) =
      Except.ok ((if c then ch! '+' else ch! '-') ::
        (List.replicate (2 - (toRadix 10 a.val).length) 48 ++ toRadix 10 a.val)) := by decide +kernel
  have := table ⟨er.natAbs, by omega⟩ (decide (er ≥ 0))
  refine ⟨_, ?_, ⟨toRadix 10 er.natAbs, ⟨toRadix_isNumeral (by omega) (by omega) _, toRadix_minimal (by omega) _,
    valueIn_toRadix (by omega) (by omega) _⟩, rfl⟩⟩
  unfold expChars
  rw [he]
  dsimp only at this ⊢
  have e1 : (if er ≥ 0 then (43 : Nat) else 45) = if decide (er ≥ 0) = true then 43 else 45 := by simp
  have e2 : (if er < 0 then (45 : Nat) else 43) = if decide (er ≥ 0) = true then 43 else 45 := by
    by_cases hz : er ≥ 0
    · rw [if_neg (by omega)]; simp [hz]
    · rw [if_pos (by omega)]; simp [hz]
  rw [e1, e2]
  exact this

theorem scientificCharsWithFraction_ok {x : Dec} {f n : Nat} {e : Int} (h : x.Ok f n e) :
    scientificCharsWithFraction x = .ok ((48 + f / 10 ^ (n - 1)) :: 46 :: digitsOf (n - 1) f) := by
  obtain ⟨rfl, h1, h2, h3⟩ := h
  obtain ⟨j, rfl⟩ : ∃ j, n = j + 1 := ⟨n - 1, by omega⟩
  unfold scientificCharsWithFraction
  dsimp only
  rw [newArray_ok (k := 2 + j) (by push_cast; omega), bind_ok,
    show (1 + ((j + 1 : Nat) : Int) - 2).toNat = j by omega]
  have d := fillWithDigits_ok (List.replicate 2 0) j f (List.replicate j 0) [] (by simp) (i := 2) (by simp)
  rw [List.append_nil, List.append_nil, List.replicate_append_replicate] at d
  rw [d]
  simp only [bind_ok]
  rw [show List.replicate 2 0 ++ digitsOf j f = [0] ++ 0 :: digitsOf j f from rfl,
    setAt_ok (by simp), bind_ok]
  have e : f / 10 ^ j < 10 := by
    rw [Nat.div_lt_iff_lt_mul (by positivity), ← pow_succ']; exact h2
  have := setAt_ok (pre := []) (c := 0) (post := 46 :: digitsOf j f) (d := toDigit (f / 10 ^ j)) (i := 0) rfl
  rw [show [0] ++ 46 :: digitsOf j f = [] ++ 0 :: 46 :: digitsOf j f from rfl, this, toDigit_eq e]
  rfl

theorem scientificCharsNoFraction_ok {x : Dec} {f n : Nat} {e : Int} (h : x.Ok f n e) (hn : n = 1) :
    scientificCharsNoFraction x = .ok [48 + f] := by
  obtain ⟨rfl, h1, h2, h3⟩ := h
  subst hn
  unfold scientificCharsNoFraction
  have a := newArray_ok (n := 1) (k := 1) rfl
  rw [a, bind_ok]
  have := setAt_ok (pre := []) (c := 0) (post := []) (d := toDigit f) (i := 0) rfl
  rw [show List.replicate 1 0 = [] ++ [0] from rfl, this, toDigit_eq (by omega)]
  rfl

/-- The mantissa and exponent of the scientific form. -/
theorem scientificChars_written {x : Dec} {f n : Nat} {e : Int} (h : x.Ok f n e) (hf : f ≠ 0) {p : Nat}
    (hn : n ≤ p + 1) (he1 : -999 ≤ n + e - 1) (he2 : n + e - 1 ≤ 999) :
    ∃ t ip fp s, scientificChars x p = .ok (t, s) ∧ ExponentText (n + e - 1) s ∧ Written t ip fp ∧
      NoExtraZero ip ∧ fp.length = n - 1 ∧ valueIn 10 (ip ++ fp) = f ∧ (p = 0 → t = ip) ∧
      (p ≠ 0 → t = ip ++ 46 :: fp) := by
  obtain ⟨s, s1, s2⟩ := expChars_ok (x := x) (er := n + e - 1) (by rw [h.eq]; rfl) he1 he2
  have h3 : 10 ^ (n - 1) ≤ f := by
    rcases h.lead with h | ⟨h, _⟩
    · exact h
    · exact absurd h hf
  have hd : f / 10 ^ (n - 1) < 10 := by
    rw [Nat.div_lt_iff_lt_mul (by positivity), ← pow_succ']
    have := h.lt; have h1 := h.pos
    rwa [show n - 1 + 1 = n by omega]
  have hd1 : 1 ≤ f / 10 ^ (n - 1) := by rwa [Nat.le_div_iff_mul_le (by positivity), one_mul]
  have hnum : IsNumeral 10 [48 + f / 10 ^ (n - 1)] := by
    refine ⟨by simp, ?_⟩
    intro c hc
    rw [List.mem_singleton.1 hc]
    unfold IsDigitIn; rw [digitVal_48 hd]; exact ⟨.inl ⟨by omega, by omega⟩, hd⟩
  have hval : valueIn 10 ([48 + f / 10 ^ (n - 1)] ++ digitsOf (n - 1) f) = f := by
    rw [valueIn_append, valueIn_singleton, digitVal_48 hd, valueIn_digitsOf, digitsOf_length]
    have := Nat.div_add_mod f (10 ^ (n - 1))
    linarith
  have hnz : NoExtraZero [48 + f / 10 ^ (n - 1)] := by
    right; simp only [List.head?_cons]; intro hc
    have hc : 48 + f / 10 ^ (n - 1) = 48 := by injection hc
    omega
  unfold scientificChars
  by_cases hp : p = 0
  · obtain rfl : n = 1 := by have := h.pos; omega
    rw [if_neg (by simpa using hp), scientificCharsNoFraction_ok h rfl]
    simp only [bind_ok, s1, pure_eq_ok]
    simp only [Nat.sub_self, pow_zero, Nat.div_one, digitsOf, List.append_nil] at hnum hval hnz ⊢
    exact ⟨_, [48 + f], [], s, rfl, s2, ⟨hnum, by simp, .inr ⟨rfl, rfl⟩⟩, hnz, rfl, by simpa using hval,
      fun _ => rfl, fun h => absurd hp h⟩
  · rw [if_pos (by simpa using hp), scientificCharsWithFraction_ok h]
    simp only [bind_ok, s1, pure_eq_ok]
    exact ⟨_, [48 + f / 10 ^ (n - 1)], digitsOf (n - 1) f, s, rfl, s2, ⟨hnum, digitsOf_isDigit _ _, .inl rfl⟩,
      hnz, by simp, hval, fun h => absurd h hp, fun _ => rfl⟩

/-! ### The three forms of a nonzero decimal -/

/-- A nonzero decimal with at most 17 digits. -/
structure Dec.Nonzero (x : Dec) (f n : Nat) (e : Int) : Prop where
  eq : x = { f := f, e := e, n := n }
  pos : 1 ≤ n
  le : n ≤ 17
  lead : 10 ^ (n - 1) ≤ f
  lt : f < 10 ^ n
  emin : -325 ≤ e
  emax : e ≤ 292

theorem plain_fixed {x : Dec} {f n : Nat} {e : Int} (h : x.Nonzero f n e) (p : Nat) (alt : Bool) :
    ∃ t, plain x p = .ok t ∧ FixedText (halfUp ((f : ℚ) * 10 ^ e) p) p alt (fracText t p alt) := by
  obtain ⟨x', f', n', e', h1, h2, h3, h4, -⟩ := round_ok (e := e) (s := e + p) h.pos h.le h.lead h.lt
  have key : 0 ≤ e' + p ∧ f' * 10 ^ (e' + p).toNat = roundNat f (e + p) := by
    by_cases hs : 0 ≤ e + p
    · obtain ⟨rfl, rfl, rfl⟩ := h3 hs
      refine ⟨hs, ?_⟩
      unfold roundNat; rw [if_pos hs]
    · rcases h4 (by omega) with ⟨g1, g2⟩ | ⟨g1, g2, g3⟩
      · refine ⟨by omega, ?_⟩
        rw [← g2]; congr 2; omega
      · rw [g1, g2, g3]; exact ⟨by omega, by simp⟩
  obtain ⟨t, t1, t2⟩ := plainChars_fixed h2 key.1 alt
  refine ⟨t, ?_, ?_⟩
  · unfold plain
    rw [h.eq]
    dsimp only
    rw [show (n : Int) + e + p = n + (e + p) by omega, h1, bind_ok, t1]
  · rw [halfUp_eq, ← key.2]; exact t2

/-- What makes a rounded decimal `f' * 10^e'` the rounding of `f * 10^e` to `P` significant digits. -/
theorem significant_of {f n f' n' P : Nat} {e e' : Int} (hpos : 1 ≤ n) (lead : 10 ^ (n - 1) ≤ f)
    (lt : f < 10 ^ n) (hP : 1 ≤ P) (hpos' : 1 ≤ n') (lead' : 10 ^ (n' - 1) ≤ f') (lt' : f' < 10 ^ n') (hle : n' ≤ P)
    (hval : (f' : ℚ) * 10 ^ e' = roundNat f ((P : Int) - n) * 10 ^ (n + e - P)) :
    Significant ((f : ℚ) * 10 ^ e) P (f' * 10 ^ (P - n')) (n' + e' - 1) := by
  have h10 : (10 : ℚ) ≠ 0 := by norm_num
  refine ⟨?_, ?_, (n : Int) + e - 1, ?_, ?_, ?_⟩
  · calc 10 ^ (P - 1) = 10 ^ (n' - 1) * 10 ^ (P - n') := by rw [← pow_add]; congr 1; omega
      _ ≤ _ := Nat.mul_le_mul_right _ lead'
  · calc f' * 10 ^ (P - n') < 10 ^ n' * 10 ^ (P - n') := Nat.mul_lt_mul_of_pos_right lt' (by positivity)
      _ = _ := by rw [← pow_add]; congr 1; omega
  · have hq : ((10 : ℚ) ^ (n - 1)) ≤ f := by exact_mod_cast lead
    calc (10 : ℚ) ^ ((n : Int) + e - 1) = 10 ^ (n - 1) * 10 ^ e := by
          rw [← zpow_natCast, ← zpow_add₀ h10]; congr 1; omega
      _ ≤ _ := mul_le_mul_of_nonneg_right hq (by positivity)
  · have hq : (f : ℚ) < 10 ^ n := by exact_mod_cast lt
    calc (f : ℚ) * 10 ^ e < 10 ^ n * 10 ^ e := mul_lt_mul_of_pos_right hq (by positivity)
      _ = _ := by rw [← zpow_natCast, ← zpow_add₀ h10]; congr 1; omega
  · rw [halfUp_eq, show e + ((P : Int) - 1 - (n + e - 1)) = P - n by omega,
      show (n : Int) + e - 1 - (P - 1) = n + e - P by omega, ← hval]
    push_cast
    rw [mul_assoc, ← zpow_natCast, ← zpow_add₀ h10]
    congr 2; omega

/-- Rounding to `P ≥ 1` significant digits. -/
theorem round_significant {x : Dec} {f n : Nat} {e : Int} (h : x.Nonzero f n e) {P : Nat} (hP : 1 ≤ P) :
    ∃ x' f' n' e', round x P = .ok x' ∧ x'.Ok f' n' e' ∧ f' ≠ 0 ∧ n' = min P n ∧
      -999 ≤ n' + e' - 1 ∧ n' + e' - 1 ≤ 999 ∧
      Significant ((f : ℚ) * 10 ^ e) P (f' * 10 ^ (P - n')) (n' + e' - 1) := by
  have h10 : (10 : ℚ) ≠ 0 := by norm_num
  obtain ⟨x', f', n', e', h1, h2, h3, h4, h5⟩ := round_ok (e := e) (s := (P : Int) - n) h.pos h.le h.lead h.lt
  obtain ⟨g1, g2, g3⟩ := h5 (by omega)
  have hle : n' ≤ P := by omega
  have hpos := h.pos
  have h17 := h.le
  have hmin := h.emin
  have hmax := h.emax
  have hpos' := h2.pos
  have lead' : 10 ^ (n' - 1) ≤ f' := by
    rcases h2.lead with h | ⟨h, _⟩
    · exact h
    · exact absurd h g1
  -- the rounded value
  have hval : (f' : ℚ) * 10 ^ e' = roundNat f ((P : Int) - n) * 10 ^ (n + e - P) := by
    by_cases hs : 0 ≤ (P : Int) - n
    · obtain ⟨rfl, rfl, rfl⟩ := h3 hs
      unfold roundNat; rw [if_pos hs]
      push_cast
      rw [← zpow_natCast, Int.toNat_of_nonneg hs, mul_assoc, ← zpow_add₀ h10]
      congr 2; omega
    · rcases h4 (by omega) with ⟨k1, k2⟩ | ⟨k1, _⟩
      · rw [← k2]; push_cast
        rw [← zpow_natCast, Int.toNat_of_nonneg (by omega), mul_assoc, ← zpow_add₀ h10]
        congr 2; omega
      · exact absurd k1 g1
  -- bounds of the exponent
  have hex : -999 ≤ (n' : Int) + e' - 1 ∧ (n' : Int) + e' - 1 ≤ 999 := by
    by_cases hs : 0 ≤ (P : Int) - n
    · obtain ⟨rfl, rfl, rfl⟩ := h3 hs; omega
    · rcases h4 (by omega) with ⟨k1, k2⟩ | ⟨k1, _⟩
      · have k3 := g3 (by omega)
        have hn' : (n' : Int) = P := by omega
        refine ⟨by omega, ?_⟩
        have hr : roundNat f ((P : Int) - n) ≤ 10 ^ 18 := by
          unfold roundNat
          rw [if_neg (by omega)]
          refine le_trans (Nat.div_le_self _ _) ?_
          have a1 : f < 10 ^ 17 := lt_of_lt_of_le h.lt (Nat.pow_le_pow_right (by omega) (by omega))
          have a2 : 10 ^ (-((P : Int) - n)).toNat ≤ 10 ^ 17 := Nat.pow_le_pow_right (by omega) (by omega)
          omega
        have hd : (e' - (e - ((P : Int) - n))).toNat ≤ 18 := by
          by_contra hc
          have : 10 ^ 19 ≤ 10 ^ (e' - (e - ((P : Int) - n))).toNat := Nat.pow_le_pow_right (by omega) (by omega)
          have : 1 * 10 ^ 19 ≤ f' * 10 ^ (e' - (e - ((P : Int) - n))).toNat := Nat.mul_le_mul (by omega) this
          omega
        omega
      · exact absurd k1 g1
  have hmin : n' = min P n := by
    by_cases hs : 0 ≤ (P : Int) - n
    · obtain ⟨rfl, rfl, rfl⟩ := h3 hs; omega
    · have k3 := g3 (by omega); omega
  refine ⟨x', f', n', e', ?_, h2, g1, hmin, hex.1, hex.2,
    significant_of h.pos h.lead h.lt hP hpos' lead' h2.lt hle hval⟩
  rw [h.eq, ← h1]; congr 1; omega

theorem scientific_ok {x : Dec} {f n : Nat} {e : Int} (h : x.Nonzero f n e) (p : Nat) (alt : Bool) :
    ∃ t s m er, scientific x p = .ok (t, s) ∧ ExponentText er s ∧
      Significant ((f : ℚ) * 10 ^ e) (p + 1) m er ∧ FixedText m p alt (fracText t p alt) := by
  obtain ⟨x', f', n', e', h1, h2, h3, h4', h5, h6, h7⟩ := round_significant h (P := p + 1) (by omega)
  have h4 : n' ≤ p + 1 := by omega
  obtain ⟨t, ip, fp, s, t1, t2, t3, t4, t5, t6, t7, t8⟩ := scientificChars_written h2 h3 h4 h5 h6
  have hpos := h2.pos
  refine ⟨t, s, _, _, ?_, t2, h7, ?_⟩
  · unfold scientific
    rw [show ((p : Int) + 1) = ((p + 1 : Nat) : Int) by push_cast; rfl, h1, bind_ok, t1]
  · have := t3.fixed t4 (p := p) (by omega) (by by_cases hp : p = 0; exact .inr (t7 hp); exact .inl hp) alt
    rwa [t6, t5, show p - (n' - 1) = p + 1 - n' by omega] at this

theorem general_ok {x : Dec} {f n : Nat} {e : Int} (h : x.Nonzero f n e) {P : Nat} (hP : 1 ≤ P) (alt : Bool) :
    ∃ t s m er, general x P = .ok (t, s) ∧ Significant ((f : ℚ) * 10 ^ e) P m er ∧
      GeneralText P n alt m er
        (match s with
          | none => gDecimalText alt t P
          | some s => gScientificText alt t s) := by
  have h10 : (10 : ℚ) ≠ 0 := by norm_num
  obtain ⟨x', f', n', e', h1, h2, h3, h4', h5, h6, h7⟩ := round_significant h hP
  have h4 : n' ≤ P := by omega
  have hpos := h2.pos
  have her : exponentRounded x' = n' + e' - 1 := by rw [h2.eq]; rfl
  unfold general
  rw [h1, bind_ok]
  simp only [her]
  by_cases hst : -4 ≤ (n' : Int) + e' - 1 ∧ (n' : Int) + e' - 1 < P
  · rw [if_pos hst]
    cases alt with
    | true =>
      obtain ⟨t, t1, t2⟩ := plainChars_padded h2 h3 h4 (by omega)
      refine ⟨t, none, _, _, by simp only [t1, bind_ok, pure_eq_ok], h7, ?_⟩
      unfold GeneralText
      rw [if_pos hst, if_pos rfl]
      simp only [gDecimalText, if_true]
      rwa [show ((P : Int) - 1 - (n' + e' - 1)).toNat = ((P : Int) - n' - e').toNat by congr 1; omega]
    | false =>
      obtain ⟨t, t1, t2⟩ := plainChars_minimal h2
      refine ⟨t, none, _, _, by simp only [t1, bind_ok, pure_eq_ok], h7, ?_⟩
      unfold GeneralText
      rw [if_pos hst, if_neg (by simp)]
      simp only [gDecimalText, Bool.false_eq_true, if_false]
      have : ((f' * 10 ^ (P - n') : Nat) : ℚ) * 10 ^ ((n' : Int) + e' - 1 - (P - 1)) = f' * 10 ^ e' := by
        push_cast
        rw [mul_assoc, ← zpow_natCast, ← zpow_add₀ h10]; congr 2; omega
      rwa [this]
  · rw [if_neg hst]
    obtain ⟨t, ip, fp, s, t1, t2, t3, t4, t5, t6, t7, t8⟩ :=
      scientificChars_written h2 h3 (p := P - 1) (by omega) h5 h6
    rw [show ((P : Int) - 1) = ((P - 1 : Nat) : Int) by omega, t1]
    refine ⟨t, some s, _, _, rfl, h7, ?_⟩
    unfold GeneralText
    rw [if_neg hst]
    cases alt with
    | true =>
      refine ⟨t, s, by simp [gScientificText], t2, ?_⟩
      rw [if_pos rfl]
      refine ⟨f', by rw [← h4'], ip, fp, ?_, t3.int, t4, t3.digits, by rw [t5, h4'], t6⟩
      by_cases hp : P = 1
      · have hfp : fp = [] := List.length_eq_zero_iff.1 (by omega)
        rw [t7 (by omega), hfp]; simp [hp, fraction]
      · rw [t8 (by omega)]; simp [hp, fraction]
    | false =>
      refine ⟨stripText t, s, by simp [gScientificText], t2, ?_⟩
      rw [if_neg (by simp)]
      refine t3.minimal t4 ?_
      rw [t6, t5]
      push_cast
      rw [mul_assoc, mul_assoc, ← zpow_natCast, ← zpow_natCast, ← zpow_add₀ h10, ← zpow_add₀ h10]
      rw [show ((P - n' : Nat) : Int) + (-((P : Int) - 1) + ((n' - 1 : Nat) : Int)) = 0 by omega]
      simp

end FastPrintf.FormattedFPDecimal
