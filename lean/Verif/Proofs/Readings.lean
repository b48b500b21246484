/-
How the traits read arguments, against the tables of Spec/Readings.lean.
-/
import Verif.Spec.Readings
import Verif.Proofs.Arithmetic
import Verif.Proofs.RopeText
import Verif.Model.Args

namespace FastPrintf
open Spec

/-! ### Integers from floating-point values -/

theorem floor_nat_div (a b : Nat) : ⌊((a : ℚ) / b)⌋ = ((a / b : Nat) : Int) := by
  have := Rat.floor_intCast_div_natCast (a : Int) b
  rw [Int.cast_natCast] at this
  rw [this, Int.natCast_ediv]

theorem truncation_neg {x : ℚ} (hx : 0 ≤ x) : truncation (-x) = -⌊x⌋ := by
  unfold truncation
  split_ifs with h
  · rw [Int.ceil_neg]
  · have : x = 0 := by linarith
    subst this; simp

theorem truncation_nonneg {x : ℚ} (hx : 0 ≤ x) : truncation x = ⌊x⌋ := by
  unfold truncation; rw [if_neg (by linarith)]

namespace JavaDouble

theorem signBit_eq (bits : BitVec 64) : signBit bits = decide (negative bits) := rfl
theorem significand_eq (bits : BitVec 64) : significand bits = doubleC bits := rfl
theorem exponent_eq (bits : BitVec 64) : exponent bits = doubleQ bits := rfl

/-- The magnitude as a quotient of integers. -/
theorem magnitude_ratio (bits : BitVec 64) :
    magnitude bits = ((doubleC bits * 2 ^ (doubleQ bits).toNat : Nat) : ℚ) /
      ((2 ^ (-doubleQ bits).toNat : Nat) : ℚ) := by
  unfold magnitude
  rw [eq_div_iff (by positivity)]
  push_cast
  rw [mul_assoc, ← zpow_natCast, ← zpow_natCast, ← zpow_add₀ (by norm_num)]
  congr 2; omega

theorem truncate_eq (bits : BitVec 64) : truncate bits = truncation (doubleValue bits) := by
  unfold truncate doubleValue signed
  rw [signBit_eq, significand_eq, exponent_eq]
  have hm : ((if doubleQ bits ≥ 0 then doubleC bits * 2 ^ (doubleQ bits).toNat
      else doubleC bits / 2 ^ (-doubleQ bits).toNat : Nat) : Int) = ⌊magnitude bits⌋ := by
    rw [magnitude_ratio, floor_nat_div]
    split_ifs with h
    · rw [show (-doubleQ bits).toNat = 0 by omega, pow_zero, Nat.div_one]
    · rw [show (doubleQ bits).toNat = 0 by omega, pow_zero, Nat.mul_one]
  dsimp only
  rw [hm]
  by_cases hn : negative bits
  · simp only [hn, decide_true, if_true]
    rw [truncation_neg (magnitude_nonneg bits)]
  · simp only [hn, decide_false, Bool.false_eq_true, if_false]
    rw [truncation_nonneg (magnitude_nonneg bits)]

theorem roundHalfUp_eq (bits : BitVec 64) : roundHalfUp bits = roundUp (doubleValue bits) := by
  unfold roundHalfUp doubleValue signed roundUp
  rw [signBit_eq, significand_eq, exponent_eq]
  obtain ⟨c, hc⟩ : ∃ c : Int, (if decide (negative bits) = true then -(doubleC bits : Int) else doubleC bits) = c :=
    ⟨_, rfl⟩
  have hv : (if decide (negative bits) = true then -magnitude bits else magnitude bits) =
      (c : ℚ) * 2 ^ doubleQ bits := by
    rw [← hc]; unfold magnitude; split_ifs <;> push_cast <;> ring
  rw [hv]
  dsimp only
  rw [hc]
  split_ifs with hq
  · have e : (2 : ℚ) ^ doubleQ bits = 2 ^ (doubleQ bits).toNat := by
      rw [← zpow_natCast]; congr 1; omega
    symm
    rw [Int.floor_eq_iff, e]
    push_cast
    constructor <;> linarith
  · have e : (2 : ℚ) ^ doubleQ bits = (2 ^ (-doubleQ bits).toNat)⁻¹ := by
      rw [← zpow_natCast, ← zpow_neg]; congr 1; omega
    generalize (-doubleQ bits).toNat = k at *
    symm
    have h1 := Int.emod_add_mul_ediv (2 * c + 2 ^ k) (2 ^ (k + 1))
    have h2 := Int.emod_nonneg (2 * c + 2 ^ k) (b := 2 ^ (k + 1)) (by positivity)
    have h3 := Int.emod_lt_of_pos (2 * c + 2 ^ k) (b := 2 ^ (k + 1)) (by positivity)
    generalize (2 * c + 2 ^ k) / 2 ^ (k + 1) = m at *
    generalize (2 * c + 2 ^ k) % 2 ^ (k + 1) = r at *
    have hp : (0 : ℚ) < 2 ^ k := by positivity
    have key : (c : ℚ) * 2 ^ doubleQ bits + 1 / 2 = m + r / 2 ^ (k + 1) := by
      have h1' : (r : ℚ) + 2 ^ (k + 1) * m = 2 * c + 2 ^ k := by exact_mod_cast h1
      have h4 : (c : ℚ) = (r + 2 ^ (k + 1) * m - 2 ^ k) / 2 := by linarith
      rw [e, h4, pow_succ]
      field_simp
      ring
    rw [key, Int.floor_eq_iff]
    have h2' : (0 : ℚ) ≤ r := by exact_mod_cast h2
    have h3' : (r : ℚ) < 2 ^ (k + 1) := by exact_mod_cast h3
    have : (r : ℚ) / 2 ^ (k + 1) < 1 := by rw [div_lt_one (by positivity)]; exact h3'
    have : (0 : ℚ) ≤ (r : ℚ) / 2 ^ (k + 1) := by positivity
    constructor <;> linarith

theorem clamp_eq {lo hi v : Int} (h : lo ≤ hi) : clamp lo hi v = max lo (min hi v) := by
  unfold clamp; split_ifs <;> omega

theorem toInteger_eq {bits : BitVec 64} {f : BitVec 64 → Int} {r : ℚ → Int}
    (h : f bits = r (doubleValue bits)) {lo hi : Int} (hl : lo ≤ hi) :
    (if isNaN bits then 0 else if isInfinite bits then (if signBit bits then lo else hi)
      else clamp lo hi (f bits)) = (doubleDatum bits).toInteger lo hi r := by
  unfold doubleDatum isNaN isInfinite
  rw [signBit_eq]
  have e1 : expField bits = expBits bits := rfl
  have e2 : fracField bits = fracBits bits := rfl
  rw [e1, e2]
  by_cases h1 : expBits bits = 2047
  · by_cases h2 : fracBits bits = 0
    · simp [h1, h2, Datum.toInteger]
    · simp [h1, h2, Datum.toInteger]
  · simp only [h1, decide_false, Bool.false_and, Bool.false_eq_true, if_false, Datum.toInteger]
    rw [clamp_eq hl, h]; rfl

theorem toLong_eq (bits : BitVec 64) :
    toLong bits = (doubleDatum bits).toInteger minLong maxLong truncation :=
  toInteger_eq (truncate_eq bits) (by decide)

theorem mathRound_eq (bits : BitVec 64) :
    mathRound bits = (doubleDatum bits).toInteger minLong maxLong roundUp :=
  toInteger_eq (roundHalfUp_eq bits) (by decide)

/-- Narrowing the range afterwards. -/
theorem clamp_toInteger {lo hi lo' hi' : Int} (h1 : lo ≤ lo') (h2 : lo' ≤ 0) (h3 : 0 ≤ hi') (h4 : hi' ≤ hi)
    (r : ℚ → Int) (x : Datum) :
    clamp lo' hi' (x.toInteger lo hi r) = x.toInteger lo' hi' r := by
  cases x with
  | nan => simp only [clamp, Datum.toInteger]; split_ifs <;> omega
  | infinite n => simp only [clamp, Datum.toInteger]; cases n <;> simp <;> split_ifs <;> omega
  | number n x => rw [clamp_eq (by omega)]; simp only [Datum.toInteger]; omega

/-! ### Widening of `float` -/

theorem log2_bounds {m : Nat} (h : m ≠ 0) : 2 ^ m.log2 ≤ m ∧ m < 2 ^ (m.log2 + 1) :=
  ⟨Nat.log2_self_le h, Nat.lt_log2_self⟩

theorem ofFloat_datum (bits : BitVec 32) : doubleDatum (ofFloat bits) = floatDatum bits := by
  have hb := bits.isLt
  obtain ⟨s, hs⟩ : ∃ s, bits.toNat / 2 ^ 31 = s := ⟨_, rfl⟩
  obtain ⟨e, he⟩ : ∃ e, expBits32 bits = e := ⟨_, rfl⟩
  obtain ⟨m, hm⟩ : ∃ m, fracBits32 bits = m := ⟨_, rfl⟩
  have hm' : m < 2 ^ 23 := by rw [← hm]; unfold fracBits32; omega
  have he' : e < 256 := by rw [← he]; unfold expBits32; omega
  have hsb : (if bits.toNat ≥ 2 ^ 31 then 2 ^ 63 else 0 : Nat) = s * 2 ^ 63 := by split_ifs <;> omega
  have hs2 : s < 2 := by omega
  have hneg32 : negative32 bits = decide (s = 1) := by
    unfold negative32; congr 1; simp only [eq_iff_iff]; omega
  have key : ∀ n, n < 2 ^ 63 → ∀ b : BitVec 64, b = BitVec.ofNat 64 (s * 2 ^ 63 + n) →
      expBits b = n / 2 ^ 52 ∧ fracBits b = n % 2 ^ 52 ∧ (decide (negative b) = decide (s = 1)) := by
    intro n hn b hb
    have : b.toNat = s * 2 ^ 63 + n := by
      rw [hb, BitVec.toNat_ofNat]; exact Nat.mod_eq_of_lt (by omega)
    refine ⟨by unfold expBits; rw [this]; omega, by unfold fracBits; rw [this]; omega, ?_⟩
    have : negative b ↔ s = 1 := by unfold negative; rw [this]; omega
    exact decide_eq_decide.2 this
  have hof : ofFloat bits = if e = 255 then BitVec.ofNat 64 (s * 2 ^ 63 + (2047 * 2 ^ 52 + m * 2 ^ 29))
      else if e ≠ 0 then BitVec.ofNat 64 (s * 2 ^ 63 + ((e + 896) * 2 ^ 52 + m * 2 ^ 29))
      else if m = 0 then BitVec.ofNat 64 (s * 2 ^ 63)
      else BitVec.ofNat 64 (s * 2 ^ 63 + ((m.log2 + 874) * 2 ^ 52 + (m * 2 ^ (52 - m.log2) - 2 ^ 52))) := by
    unfold ofFloat
    dsimp only
    rw [hsb, show (bits.toNat / 2 ^ 23) % 256 = e from he, show bits.toNat % 2 ^ 23 = m from hm]
    rw [Nat.add_assoc, Nat.add_assoc, Nat.add_assoc]
  rw [hof]
  unfold floatDatum magnitude32
  rw [he, hm, hneg32]
  by_cases h1 : e = 255
  · rw [if_pos h1, if_pos h1]
    obtain ⟨k1, k2, k3⟩ := key (2047 * 2 ^ 52 + m * 2 ^ 29) (by omega) _ rfl
    unfold doubleDatum
    rw [k1, k2, k3, if_pos (by omega)]
    have : (2047 * 2 ^ 52 + m * 2 ^ 29) % 2 ^ 52 = m * 2 ^ 29 := by omega
    rw [this]
    by_cases hm0 : m = 0
    · rw [if_pos (by omega), if_pos hm0]
    · rw [if_neg (by omega), if_neg hm0]
  rw [if_neg h1, if_neg h1]
  by_cases h2 : e = 0
  · rw [if_neg (by omega : ¬ e ≠ 0), if_pos h2]
    by_cases h3 : m = 0
    · rw [if_pos h3]
      obtain ⟨k1, k2, k3⟩ := key 0 (by omega) _ (by rw [Nat.add_zero])
      unfold doubleDatum magnitude doubleC doubleQ
      rw [k1, k2, k3, if_neg (by omega)]
      subst h3
      simp
    · rw [if_neg h3]
      obtain ⟨l1, l2⟩ := log2_bounds h3
      generalize m.log2 = l at *
      have hl : l < 23 := by
        by_contra hge
        have : 2 ^ 23 ≤ 2 ^ l := Nat.pow_le_pow_right (by norm_num) (by omega)
        omega
      have p1 : 2 ^ l * 2 ^ (52 - l) = 2 ^ 52 := by rw [← pow_add]; congr 1; omega
      have p2 : 2 ^ (l + 1) * 2 ^ (52 - l) = 2 ^ 53 := by rw [← pow_add]; congr 1; omega
      have p3 : 2 ^ 52 ≤ m * 2 ^ (52 - l) := by rw [← p1]; exact Nat.mul_le_mul_right _ l1
      have p4 : m * 2 ^ (52 - l) < 2 ^ 53 := by
        rw [← p2]; exact Nat.mul_lt_mul_of_pos_right l2 (by positivity)
      obtain ⟨M, hM⟩ : ∃ M, m * 2 ^ (52 - l) = M := ⟨_, rfl⟩
      rw [hM] at p3 p4 ⊢
      obtain ⟨k1, k2, k3⟩ := key ((l + 874) * 2 ^ 52 + (M - 2 ^ 52)) (by omega) _ rfl
      unfold doubleDatum magnitude doubleC doubleQ
      have q1 : ((l + 874) * 2 ^ 52 + (M - 2 ^ 52)) / 2 ^ 52 = l + 874 := by omega
      have q2 : ((l + 874) * 2 ^ 52 + (M - 2 ^ 52)) % 2 ^ 52 = M - 2 ^ 52 := by omega
      rw [k1, k2, k3, q1, q2, if_neg (by omega), if_neg (by omega), if_neg (by omega)]
      have hmag : ((2 ^ 52 + (M - 2 ^ 52) : Nat) : ℚ) * 2 ^ (((l + 874 : Nat) : Int) - 1075) =
          (m : ℚ) * 2 ^ (-149 : Int) := by
        rw [show 2 ^ 52 + (M - 2 ^ 52) = M by omega, ← hM, Nat.cast_mul, Nat.cast_pow, mul_assoc,
          ← zpow_natCast, Nat.cast_ofNat, ← zpow_add₀ (by norm_num)]
        have : (((52 - l : Nat) : Int) + (((l + 874 : Nat) : Int) - 1075)) = -149 := by omega
        rw [this]
      rw [hmag]
  · rw [if_pos h2, if_neg h2]
    obtain ⟨k1, k2, k3⟩ := key ((e + 896) * 2 ^ 52 + m * 2 ^ 29) (by omega) _ rfl
    unfold doubleDatum magnitude doubleC doubleQ
    have q1 : ((e + 896) * 2 ^ 52 + m * 2 ^ 29) / 2 ^ 52 = e + 896 := by omega
    have q2 : ((e + 896) * 2 ^ 52 + m * 2 ^ 29) % 2 ^ 52 = m * 2 ^ 29 := by omega
    rw [k1, k2, k3, q1, q2, if_neg (by omega), if_neg (by omega), if_neg (by omega)]
    have h29 : ((2 ^ 52 + m * 2 ^ 29 : Nat) : ℚ) = ((2 ^ 23 + m : Nat) : ℚ) * 2 ^ (29 : Int) := by
      rw [show 2 ^ 52 + m * 2 ^ 29 = (2 ^ 23 + m) * 2 ^ 29 by omega, Nat.cast_mul]
      norm_num
    have hx : (29 : Int) + (((e + 896 : Nat) : Int) - 1075) = (e : Int) - 150 := by omega
    rw [h29, mul_assoc, ← zpow_add₀ (by norm_num), hx]

theorem floatToInt_eq (bits : BitVec 32) :
    floatToInt bits = (floatDatum bits).toInteger minInt maxInt truncation := by
  unfold floatToInt
  rw [toLong_eq, ofFloat_datum]
  exact clamp_toInteger (by decide) (by decide) (by decide) (by decide) _ _

theorem floatRound_eq (bits : BitVec 32) :
    floatRound bits = (floatDatum bits).toInteger minInt maxInt roundUp := by
  unfold floatRound
  rw [mathRound_eq, ofFloat_datum]
  exact clamp_toInteger (by decide) (by decide) (by decide) (by decide) _ _

end JavaDouble

/-! ### Texts -/

theorem digitsOf_iff (env : JdkEnv) (s : JStr) (n : Nat) :
    DigitsOf env.digit s n ↔
      s.foldl (fun acc c => do return (← acc) * 10 + (← env.digit c)) (some 0) = some n := by
  induction s using List.reverseRecOn generalizing n with
  | nil =>
    constructor
    · intro h
      generalize hs : ([] : JStr) = s at h
      cases h with
      | nil => rfl
      | snoc h hc => simp at hs
    · intro h
      simp only [List.foldl_nil, Option.some.injEq] at h
      subst h; exact .nil
  | append_singleton s c ih =>
    rw [List.foldl_append]
    constructor
    · intro h
      generalize hs : s ++ [c] = s' at h
      cases h with
      | nil => simp at hs
      | snoc h hc =>
        obtain ⟨rfl, rfl⟩ := List.append_inj' hs rfl |>.imp id (fun h => by simpa using h)
        rw [(ih _).1 h]
        simp [hc]; omega
    · intro h
      cases hf : s.foldl (fun acc c => do return (← acc) * 10 + (← env.digit c)) (some 0) with
      | none => rw [hf] at h; simp at h
      | some m =>
        rw [hf] at h
        cases hc : env.digit c with
        | none => simp [hc] at h
        | some k =>
          simp [hc] at h
          rw [← h, show m * 10 + k = 10 * m + k by omega]
          exact .snoc ((ih m).2 hf) hc

theorem parseDigits_iff (env : JdkEnv) (s : JStr) (n : Nat) :
    parseDigits env s = some n ↔ s ≠ [] ∧ DigitsOf env.digit s n := by
  rw [digitsOf_iff]
  cases s with
  | nil => simp [parseDigits]
  | cons c s => simp [parseDigits]

/-- What `parseSigned` reads before the range check. -/
def textValue (env : JdkEnv) (s : JStr) : Option Int :=
  match s with
  | 45 :: ds => (parseDigits env ds).map fun (n : Nat) => -(n : Int)
  | 43 :: ds => (parseDigits env ds).map fun (n : Nat) => (n : Int)
  | ds => (parseDigits env ds).map fun (n : Nat) => (n : Int)

theorem textValue_iff (env : JdkEnv) (s : JStr) (v : Int) :
    textValue env s = some v ↔ IntegerText env.digit s v := by
  unfold IntegerText
  have k : ∀ (ds : JStr) (f : Nat → Int), (parseDigits env ds).map f = some v ↔
      ∃ n, ds ≠ [] ∧ DigitsOf env.digit ds n ∧ v = f n := by
    intro ds f
    rw [Option.map_eq_some_iff]
    constructor
    · rintro ⟨n, h, rfl⟩; rw [parseDigits_iff] at h; exact ⟨n, h.1, h.2, rfl⟩
    · rintro ⟨n, h1, h2, rfl⟩; exact ⟨n, (parseDigits_iff ..).2 ⟨h1, h2⟩, rfl⟩
  have e1 : (ch! '-' : Nat) = 45 := rfl
  have e2 : (ch! '+' : Nat) = 43 := rfl
  rw [e1, e2]
  unfold textValue
  split
  · rename_i ds
    rw [k]
    constructor
    · rintro ⟨n, h1, h2, h3⟩; exact ⟨ds, n, h1, h2, .inl ⟨rfl, h3⟩⟩
    · rintro ⟨ds', n, h1, h2, h | h | h⟩
      · obtain ⟨h, h3⟩ := h
        cases h; exact ⟨n, h1, h2, h3⟩
      · exact absurd h.1 (by simp)
      · exact absurd rfl h.2.2.1
  · rename_i ds
    rw [k]
    constructor
    · rintro ⟨n, h1, h2, h3⟩; exact ⟨ds, n, h1, h2, .inr (.inl ⟨rfl, h3⟩)⟩
    · rintro ⟨ds', n, h1, h2, h | h | h⟩
      · exact absurd h.1 (by simp)
      · obtain ⟨h, h3⟩ := h
        cases h; exact ⟨n, h1, h2, h3⟩
      · exact absurd rfl h.2.2.2
  · rename_i hn1 hn2
    rw [k]
    constructor
    · rintro ⟨n, h1, h2, h3⟩
      refine ⟨s, n, h1, h2, .inr (.inr ⟨rfl, h3, ?_, ?_⟩)⟩
      · cases s with
        | nil => simp
        | cons c s => intro h; simp at h; exact hn1 s (by rw [h])
      · cases s with
        | nil => simp
        | cons c s => intro h; simp at h; exact hn2 s (by rw [h])
    · rintro ⟨ds', n, h1, h2, h | h | h⟩
      · exact absurd h.1 (hn1 _)
      · exact absurd h.1 (hn2 _)
      · obtain ⟨rfl, h3, _⟩ := h; exact ⟨n, h1, h2, h3⟩

theorem parseSigned_eq (env : JdkEnv) (lo hi : Int) (s : JStr) :
    parseSigned env lo hi s = match textValue env s with
      | some n => if lo ≤ n ∧ n ≤ hi then .ok n else .error .numberFormat
      | none => .error .numberFormat := by
  unfold parseSigned textValue; rfl

theorem parseSigned_ok {env : JdkEnv} {lo hi v : Int} {s : JStr} (h : IntegerText env.digit s v)
    (h1 : lo ≤ v) (h2 : v ≤ hi) : orPrintf (parseSigned env lo hi s) = .ok v := by
  rw [parseSigned_eq, (textValue_iff env s v).2 h]
  simp only [h1, h2, and_self, if_true, orPrintf]

theorem parseSigned_refused {env : JdkEnv} {lo hi : Int} {s : JStr}
    (h : ¬ ∃ v, IntegerText env.digit s v ∧ lo ≤ v ∧ v ≤ hi) :
    orPrintf (parseSigned env lo hi s) = .error (refused .textToInt) := by
  rw [parseSigned_eq]
  cases ht : textValue env s with
  | none => rfl
  | some v =>
    have : ¬ (lo ≤ v ∧ v ≤ hi) := fun hr => h ⟨v, (textValue_iff env s v).1 ht, hr⟩
    simp only [this, if_false]; rfl

/-! ### Decimals and points in time -/

theorem truncation_int_div (u : Int) {n : Nat} (hn : 0 < n) : truncation ((u : ℚ) / n) = Int.tdiv u n := by
  have hq : (0 : ℚ) < n := by exact_mod_cast hn
  rcases le_or_gt 0 u with h | h
  · have : (0 : ℚ) ≤ (u : ℚ) / n := div_nonneg (by exact_mod_cast h) hq.le
    rw [truncation_nonneg this, Rat.floor_intCast_div_natCast, Int.tdiv_eq_ediv_of_nonneg h]
  · have h' : (0 : ℚ) ≤ ((-u : Int) : ℚ) / n := div_nonneg (by exact_mod_cast (by omega : 0 ≤ -u)) hq.le
    have e : (u : ℚ) / n = -(((-u : Int) : ℚ) / n) := by push_cast; ring
    rw [e, truncation_neg h', Rat.floor_intCast_div_natCast,
      ← Int.tdiv_eq_ediv_of_nonneg (by omega : 0 ≤ -u), Int.neg_tdiv, neg_neg]

theorem truncation_int (u : Int) : truncation (u : ℚ) = u := by
  have := truncation_int_div u (n := 1) (by norm_num)
  simpa using this

theorem bigDecimalTruncate_eq (u s : Int) : bigDecimalTruncate u s = truncation ((u : ℚ) * 10 ^ (-s)) := by
  unfold bigDecimalTruncate
  split_ifs with h
  · have : (u : ℚ) * 10 ^ (-s) = ((u * 10 ^ (-s).toNat : Int) : ℚ) := by
      push_cast
      rw [← zpow_natCast, Int.toNat_of_nonneg (by omega)]
    rw [this, truncation_int]
  · have : (u : ℚ) * 10 ^ (-s) = (u : ℚ) / ((10 ^ s.toNat : Nat) : ℚ) := by
      push_cast
      rw [← zpow_natCast, Int.toNat_of_nonneg (by omega), zpow_neg, div_eq_mul_inv]
    rw [this, truncation_int_div u (by positivity)]
    push_cast; rfl

theorem floor_millis (sec : Int) (nano : Nat) :
    ⌊(sec * 1000 + nano / 1000000 : ℚ)⌋ = sec * 1000 + ((nano / 1000000 : Nat) : Int) := by
  have h := floor_nat_div nano 1000000
  push_cast at h
  have : ((sec : ℚ) * 1000 + nano / 1000000) = ((sec * 1000 : Int) : ℚ) + (nano : ℚ) / 1000000 := by
    push_cast; ring
  rw [this, Int.floor_intCast_add, h]; push_cast; rfl

theorem millisToInt_eq (ms : BitVec 64) : millisToInt ms = wrap32 (truncation (ms.toInt / 1000 : ℚ)) := by
  have := truncation_int_div ms.toInt (n := 1000) (by norm_num)
  unfold millisToInt
  push_cast at this
  rw [this]

theorem Spec.Narrows.eq {v n : Int} (h : Narrows v n) : wrap32 v = n := by
  obtain ⟨h1, h2, k, rfl⟩ := h
  unfold minInt at h1; unfold maxInt at h2
  unfold wrap32
  rw [Int.bmod_def]
  norm_num at *
  split_ifs <;> omega

theorem wrap32_narrows (v : Int) : Narrows v (wrap32 v) := by
  unfold Narrows minInt maxInt wrap32
  rw [Int.bmod_def]
  norm_num
  split_ifs
  · exact ⟨by omega, by omega, v / 4294967296, by omega⟩
  · exact ⟨by omega, by omega, v / 4294967296 + 1, by omega⟩

/-! ### Seconds as `double`s -/

theorem Spec.NearestDouble.exact {x : ℚ} {b : BitVec 64} (h : NearestDouble x b) (hx : IsFloat |x|) :
    doubleValue b = x := by
  obtain ⟨_, hs, hr⟩ := h
  have hm : magnitude b = |x| := by
    rcases hr _ hx with g | g | ⟨g, _⟩
    · exact g.symm
    · rw [sub_self, abs_zero] at g; exact absurd g (not_lt.2 (abs_nonneg _))
    · rw [sub_self, abs_zero, abs_eq_zero, sub_eq_zero] at g; exact g.symm
  unfold doubleValue signed
  rw [hm]
  by_cases hn : negative b
  · rw [if_pos (by simp [hn]), abs_of_neg (hs.1 hn), neg_neg]
  · rw [if_neg (by simp [hn]), abs_of_nonneg (not_lt.1 (fun g => hn (hs.2 g)))]

theorem Spec.NearestDouble.abs_le {x y : ℚ} {b : BitVec 64} (h : NearestDouble x b) (hy : IsFloat y) (hx : |x| ≤ y) :
    |doubleValue b| ≤ y := by
  rw [JavaDouble.abs_doubleValue]; exact h.2.2.ge hy hx

theorem Spec.NearestDouble.le_abs {x y : ℚ} {b : BitVec 64} (h : NearestDouble x b) (hy : IsFloat y) (hx : y ≤ |x|) :
    y ≤ |doubleValue b| := by
  rw [JavaDouble.abs_doubleValue]; exact h.2.2.le hy hx

theorem Spec.NearestDouble.zero {b : BitVec 64} (h : NearestDouble 0 b) : doubleValue b = 0 :=
  h.exact (by rw [abs_zero]; exact isFloat_zero)

theorem Spec.NearestDouble.nonneg {x : ℚ} {b : BitVec 64} (h : NearestDouble x b) (hx : 0 ≤ x) :
    0 ≤ doubleValue b := by
  have : ¬ negative b := fun g => absurd (h.2.1.1 g) (not_lt.2 hx)
  unfold doubleValue signed
  rw [if_neg (by simp [this])]
  exact JavaDouble.magnitude_nonneg b

theorem Spec.NearestDouble.nonpos {x : ℚ} {b : BitVec 64} (h : NearestDouble x b) (hx : x < 0) :
    doubleValue b ≤ 0 := by
  have : negative b := h.2.1.2 hx
  unfold doubleValue signed
  rw [if_pos (by simp [this])]
  have := JavaDouble.magnitude_nonneg b
  linarith

theorem two_zpow_1022 : (2 : ℚ) ^ (-1022 : Int) ≤ 2 ^ (-31 : Int) :=
  zpow_le_zpow_right₀ (by norm_num) (by norm_num)

theorem millis_rounded {ms a : BitVec 64} (ha : NearestDouble ms.toInt a) :
    NearestDouble (doubleValue a / 1000) (millisToSeconds ms) := by
  have h1 := BitVec.toInt_lt (x := ms)
  have h2 := BitVec.le_toInt (x := ms)
  have h3 : |ms.toInt| ≤ 2 ^ 63 := abs_le.2 ⟨by omega, by omega⟩
  obtain rfl := ha.unique (JavaDouble.ofInt_nearest h3)
  have h4 : |(ms.toInt : ℚ)| ≤ 2 ^ (63 : Int) := by exact_mod_cast h3
  have h5 := ha.abs_le (isFloat_pow 63 (by norm_num)) h4
  unfold millisToSeconds
  have := JavaDouble.divNat_nearest (a := JavaDouble.ofInt ms.toInt) (n := 1000) (by norm_num) ?_ ?_
  · exact_mod_cast this
  · intro h0
    have hne : ms.toInt ≠ 0 := by
      intro hz; rw [hz] at ha h0
      exact h0 (NearestDouble.zero (by exact_mod_cast ha))
    have h6 := ha.le_abs isFloat_one (JavaDouble.one_le_abs_int hne)
    rw [abs_div]
    refine two_zpow_1022.trans ?_
    rw [le_div_iff₀ (by norm_num)]
    norm_num
    linarith
  · rw [abs_div]
    refine lt_of_le_of_lt ?_ (zpow_lt_zpow_right₀ (by norm_num : (1 : ℚ) < 2) (by norm_num : (63 : Int) < 1022))
    refine le_trans (div_le_self (abs_nonneg _) ?_) h5
    norm_num

theorem millis_nearest (ms : BitVec 64) {a b : BitVec 64} (ha : NearestDouble ms.toInt a)
    (hb : NearestDouble (doubleValue a / 1000) b) : b = millisToSeconds ms :=
  hb.unique (millis_rounded ha)

theorem millis_exists {ms a : BitVec 64} (ha : NearestDouble ms.toInt a) :
    ∃ b, NearestDouble (doubleValue a / 1000) b := ⟨_, millis_rounded ha⟩

theorem isFloat_nat {n : Nat} (h : n < 2 ^ 53) : IsFloat (n : ℚ) := ⟨n, 0, h, by norm_num, by simp⟩

theorem instant_rounded {sec : Int} {nano : Nat} (h1 : minLong ≤ sec) (h2 : sec ≤ maxLong)
    (h3 : nano < 1000000000) : ∃ a b, NearestDouble sec a ∧ NearestDouble ((nano : ℚ) / 1000000000) b ∧
      NearestDouble (doubleValue a + doubleValue b) (instantSeconds (sec, nano)) := by
  unfold minLong at h1
  unfold maxLong at h2
  have hs : |sec| ≤ 2 ^ 63 := abs_le.2 ⟨by omega, by omega⟩
  have ha := JavaDouble.ofInt_nearest hs
  have hsq : |(sec : ℚ)| ≤ 2 ^ (63 : Int) := by exact_mod_cast hs
  have ha1 := ha.abs_le (isFloat_pow 63 (by norm_num)) hsq
  have hn : |(nano : Int)| ≤ 2 ^ 63 := abs_le.2 ⟨by omega, by omega⟩
  have hna := JavaDouble.ofInt_nearest hn
  have hnv : doubleValue (JavaDouble.ofInt nano) = nano := by
    have := hna.exact (by
      rw [abs_of_nonneg (by positivity)]
      exact_mod_cast isFloat_nat (n := nano) (by omega))
    exact_mod_cast this
  have hnq : (nano : ℚ) ≤ 999999999 := by exact_mod_cast (by omega : nano ≤ 999999999)
  have hn0 : (0 : ℚ) ≤ nano := by positivity
  have hb : NearestDouble ((nano : ℚ) / 1000000000) (JavaDouble.divNat (JavaDouble.ofInt nano) 1000000000) := by
    have := JavaDouble.divNat_nearest (a := JavaDouble.ofInt nano) (n := 1000000000) (by norm_num) ?_ ?_
    · rw [hnv] at this; exact_mod_cast this
    · rw [hnv]
      intro h0
      have h1 : 1 ≤ nano := by
        rcases Nat.eq_zero_or_pos nano with g | g
        · rw [g] at h0; simp at h0
        · exact g
      have h1q : (1 : ℚ) ≤ nano := by exact_mod_cast h1
      refine two_zpow_1022.trans ?_
      rw [abs_of_nonneg (by positivity), le_div_iff₀ (by norm_num)]
      norm_num
      linarith
    · rw [hnv, abs_of_nonneg (by positivity)]
      refine lt_of_le_of_lt ?_ (zpow_lt_zpow_right₀ (by norm_num : (1 : ℚ) < 2) (by norm_num : (0 : Int) < 1022))
      rw [div_le_iff₀ (by norm_num)]
      norm_num
      linarith
  have hb0 := hb.nonneg (by positivity)
  have hbl : doubleValue (JavaDouble.divNat (JavaDouble.ofInt nano) 1000000000) ≤ 1 - 2 ^ (-31 : Int) := by
    have := hb.abs_le (y := 1 - 2 ^ (-31 : Int)) ⟨2 ^ 31 - 1, -31, by norm_num, by norm_num, by norm_num⟩ (by
      rw [abs_of_nonneg (by positivity), div_le_iff₀ (by norm_num)]
      norm_num
      linarith)
    rwa [abs_of_nonneg hb0] at this
  refine ⟨_, _, ha, hb, JavaDouble.add_nearest ?_ ?_⟩
  · intro h0
    refine two_zpow_1022.trans ?_
    rcases lt_trichotomy sec 0 with g | g | g
    · have g1 := ha.le_abs isFloat_one (JavaDouble.one_le_abs_int g.ne)
      have g2 := ha.nonpos (by exact_mod_cast g)
      rw [abs_of_nonpos g2] at g1
      rw [abs_of_nonpos (by linarith [show (0 : ℚ) < 2 ^ (-31 : Int) by positivity])]
      linarith
    · subst g
      have g1 : doubleValue (JavaDouble.ofInt 0) = 0 := NearestDouble.zero (by exact_mod_cast ha)
      rw [g1, zero_add] at h0 ⊢
      have h1 : 1 ≤ nano := by
        rcases Nat.eq_zero_or_pos nano with g | g
        · rw [g] at h0 hb
          exact absurd (NearestDouble.zero (by simpa using hb)) h0
        · exact g
      have h1q : (1 : ℚ) ≤ nano := by exact_mod_cast h1
      refine hb.le_abs (isFloat_pow _ (by norm_num)) ?_
      rw [abs_of_nonneg (by positivity), le_div_iff₀ (by norm_num)]
      norm_num
      linarith
    · have g1 := ha.le_abs isFloat_one (JavaDouble.one_le_abs_int g.ne')
      have g2 := ha.nonneg (by exact_mod_cast g.le)
      rw [abs_of_nonneg g2] at g1
      rw [abs_of_nonneg (by linarith)]
      have : (2 : ℚ) ^ (-31 : Int) ≤ 1 := zpow_le_one_of_nonpos₀ (by norm_num) (by norm_num)
      linarith
  · refine lt_of_le_of_lt (b := 2 ^ (64 : Int)) ?_ (zpow_lt_zpow_right₀ (by norm_num) (by norm_num))
    rw [abs_le] at ha1 ⊢
    norm_num at ha1 hbl ⊢
    constructor <;> linarith

theorem instant_nearest {sec : Int} {nano : Nat} (h1 : minLong ≤ sec) (h2 : sec ≤ maxLong)
    (h3 : nano < 1000000000) {a b c : BitVec 64} (ha : NearestDouble sec a)
    (hb : NearestDouble ((nano : ℚ) / 1000000000) b) (hc : NearestDouble (doubleValue a + doubleValue b) c) :
    c = instantSeconds (sec, nano) := by
  obtain ⟨a', b', ha', hb', hc'⟩ := instant_rounded h1 h2 h3
  obtain rfl := ha.unique ha'
  obtain rfl := hb.unique hb'
  exact hc.unique hc'

theorem instant_exists {sec : Int} {nano : Nat} (h1 : minLong ≤ sec) (h2 : sec ≤ maxLong)
    (h3 : nano < 1000000000) : ∃ a b c, NearestDouble sec a ∧ NearestDouble ((nano : ℚ) / 1000000000) b ∧
      NearestDouble (doubleValue a + doubleValue b) c := by
  obtain ⟨a, b, ha, hb, hc⟩ := instant_rounded h1 h2 h3
  exact ⟨a, b, _, ha, hb, hc⟩

/-! ### The readings -/

/-- The `IntForm` of a value of an integral type. -/
def Spec.Integral.form : Integral → IntForm
  | .byte v => .ofByte v
  | .short v => .ofShort v
  | .char v => .ofInt (BitVec.ofNat 32 v.toNat)
  | .int v => .ofInt v
  | .long v => .ofLong v
  | .bool b => .ofInt (if b then 1#32 else 0#32)
  | .big v => .ofBigInteger v

theorem Spec.Integral.Given.intForm (jdk : JdkEnv) {x : Integral} {e : Entry} (h : x.Given e) :
    (e.toTraits jdk).asIntForm = .ok (Integral.form x) := by
  cases h with
  | prim h => cases x <;> simp [Integral.prim?] at h <;> subst h <;> rfl
  | boxed h => cases x <;> simp [Integral.prim?] at h <;> subst h <;> rfl
  | big v id => rfl

theorem Spec.Holds.traits {jdk : JdkEnv} {e : Entry} {p : Prim} (h : Holds e p) :
    ∃ r, e.toTraits jdk = p.traits jdk r := by
  cases h with
  | prim => exact ⟨_, rfl⟩
  | boxed id => exact ⟨_, rfl⟩

theorem Spec.HoldsText.traits {jdk : JdkEnv} {e : Entry} {s : JStr} (h : HoldsText e s) :
    ∃ q r, e.toTraits jdk = charSequenceTraits jdk s q r := by
  cases h with
  | string => exact ⟨_, _, rfl⟩
  | charSeq => exact ⟨_, _, rfl⟩
  | @seq q s hq id =>
    exact ⟨.ok q, id.ref, hq.traits jdk id.ref⟩

theorem Spec.IntReading.form {jdk : JdkEnv} {e : Entry} {r : Res Integral} (h : IntReading jdk e r) :
    (e.toTraits jdk).asIntForm = r.map Integral.form := by
  cases h with
  | float h =>
    obtain ⟨r, hr⟩ := h.traits (jdk := jdk)
    rw [hr, ← JavaDouble.floatToInt_eq]; rfl
  | double h =>
    obtain ⟨r, hr⟩ := h.traits (jdk := jdk)
    rw [hr, ← JavaDouble.toLong_eq]; rfl
  | bigDecimal u s id => rw [← bigDecimalTruncate_eq]; rfl
  | text h hv h1 h2 =>
    obtain ⟨q, r, hr⟩ := h.traits (jdk := jdk)
    rw [hr]
    simp only [charSequenceTraits]
    rw [parseSigned_ok hv (by exact h1) (by exact h2)]
    rfl
  | noNumber h hv =>
    obtain ⟨q, r, hr⟩ := h.traits (jdk := jdk)
    rw [hr]
    simp only [charSequenceTraits]
    rw [parseSigned_refused (by exact hv)]
    rfl
  | number l d i t id => rfl
  | date ms i t id => rfl
  | calendar ms t id => rfl
  | temporal h hms h1 h2 s id =>
    rw [floor_millis] at hms
    simp only [Entry.toTraits, Obj.toTraits, temporalTraits, h, epochMilli]
    rw [if_pos (by subst hms; exact ⟨h1, h2⟩), hms]
    rfl
  | tooFar h hms h1 s id =>
    rw [floor_millis] at hms
    simp only [Entry.toTraits, Obj.toTraits, temporalTraits, h, epochMilli]
    rw [if_neg (by subst hms; unfold minLong maxLong at h1; unfold JavaDouble.longMin JavaDouble.longMax; omega)]
    rfl
  | noInstant h s id => simp only [Entry.toTraits, Obj.toTraits, temporalTraits, h]; rfl
  | null => rfl
  | other t id => rfl

theorem Spec.StarReading.int {jdk : JdkEnv} {e : Entry} {r : Res Int} (h : StarReading jdk e r) :
    (e.toTraits jdk).asInt = r := by
  cases h with
  | integral h hn =>
    have hw := hn.eq
    have k : ∀ {n : Nat} (v : BitVec n), n ≤ 32 → wrap32 v.toInt = v.toInt := by
      intro n v hle
      have h1 := BitVec.toInt_lt (x := v)
      have h2 := BitVec.le_toInt (x := v)
      have h3 : (2 : Int) ^ (n - 1) ≤ 2 ^ 31 := by
        exact_mod_cast Nat.pow_le_pow_right (by norm_num) (by omega : n - 1 ≤ 31)
      refine Narrows.eq ⟨?_, ?_, 0, by simp⟩
      · unfold minInt; omega
      · unfold maxInt; omega
    have aux : ∀ {x : Integral} {p : Prim} {n : Int} {ref}, x.prim? = some p → wrap32 x.value = n →
        (p.traits jdk ref).asInt = .ok n := by
      intro x p n ref h hw
      cases x <;> simp [Integral.prim?] at h <;> subst h <;> rw [← hw] <;>
        simp only [Prim.traits, byteTraits, shortTraits, charTraits, intTraits, longTraits, boolTraits, Integral.value]
      · rw [k _ (by norm_num)]
      · rw [k _ (by norm_num)]
      · rename_i v
        have := v.isLt
        rw [Narrows.eq (n := v.toNat) ⟨by unfold minInt; omega, by unfold maxInt; omega, 0, by simp⟩]
      · rw [k _ (by norm_num)]
      · split <;> rfl
    cases h with
    | prim h => exact aux h hw
    | boxed h id => exact aux h hw
    | big v id => exact congrArg _ hw
  | float h =>
    obtain ⟨r, hr⟩ := h.traits (jdk := jdk)
    rw [hr, ← JavaDouble.floatRound_eq]; rfl
  | double h hn =>
    obtain ⟨r, hr⟩ := h.traits (jdk := jdk)
    rw [← JavaDouble.mathRound_eq] at hn
    rw [hr, ← hn.eq]; rfl
  | bigDecimal u s id hn =>
    rw [← hn.eq, ← bigDecimalTruncate_eq]; rfl
  | text h hv h1 h2 =>
    obtain ⟨q, r, hr⟩ := h.traits (jdk := jdk)
    rw [hr]
    exact parseSigned_ok hv h1 h2
  | noNumber h hv =>
    obtain ⟨q, r, hr⟩ := h.traits (jdk := jdk)
    rw [hr]
    exact parseSigned_refused hv
  | number l d i t id => rfl
  | date ms i t id hn => rw [← hn.eq, ← millisToInt_eq]; rfl
  | calendar ms t id hn => rw [← hn.eq, ← millisToInt_eq]; rfl
  | temporal h hn s id => rw [← hn.eq]; simp only [Entry.toTraits, Obj.toTraits, temporalTraits, h]
  | noInstant h s id => simp only [Entry.toTraits, Obj.toTraits, temporalTraits, h]; rfl
  | null => rfl
  | other t id => rfl

/-- Equal values are equal bits, except for NaN. -/
theorem doubleDatum_inj {b b' : BitVec 64} (h : doubleDatum b = doubleDatum b') :
    b = b' ∨ (doubleDatum b = .nan ∧ doubleDatum b' = .nan) := by
  have hE : expBits b < 2048 := Nat.mod_lt _ (by norm_num)
  have l := b.isLt; have l' := b'.isLt
  by_cases h1 : expBits b = 2047
  · by_cases h2 : fracBits b = 0
    · have e : doubleDatum b = .infinite (negative b) := by unfold doubleDatum; rw [if_pos h1, if_pos h2]
      rw [e] at h
      unfold doubleDatum at h
      split_ifs at h with g1 g2
      simp only [Datum.infinite.injEq, decide_eq_decide] at h
      left
      apply BitVec.eq_of_toNat_eq
      unfold negative at h
      unfold expBits at h1 g1
      unfold fracBits at h2 g2
      omega
    · have e : doubleDatum b = .nan := by unfold doubleDatum; rw [if_pos h1, if_neg h2]
      exact .inr ⟨e, by rw [← h, e]⟩
  · have e : doubleDatum b = .number (negative b) (signed (negative b) (magnitude b)) := by
      unfold doubleDatum; rw [if_neg h1]
    rw [e] at h
    unfold doubleDatum at h
    split_ifs at h with g1
    simp only [Datum.number.injEq, decide_eq_decide] at h
    obtain ⟨hs, hm⟩ := h
    left
    refine bits_ext h1 g1 hs ?_
    unfold signed at hm
    by_cases hn : negative b
    · rw [if_pos (by simp [hn]), if_pos (by simp [hs.1 hn])] at hm; linarith
    · rw [if_neg (by simp [hn]), if_neg (by simpa using fun g => hn (hs.2 g))] at hm; exact hm

theorem integral_abs_le {x : Integral} (hb : ∀ v, x ≠ .big v) : |x.value| ≤ 2 ^ 63 := by
  have k : ∀ {n : Nat} (v : BitVec n), n ≤ 64 → |v.toInt| ≤ 2 ^ 63 := by
    intro n v hle
    have h1 := BitVec.toInt_lt (x := v)
    have h2 := BitVec.le_toInt (x := v)
    have h3 : (2 : Int) ^ (n - 1) ≤ 2 ^ 63 := by
      exact_mod_cast Nat.pow_le_pow_right (by norm_num) (by omega : n - 1 ≤ 63)
    exact abs_le.2 ⟨by omega, by omega⟩
  cases x with
  | byte v => exact k v (by norm_num)
  | short v => exact k v (by norm_num)
  | char v =>
    have := v.isLt
    simp only [Integral.value]
    exact abs_le.2 ⟨by omega, by omega⟩
  | int v => exact k v (by norm_num)
  | long v => exact k v (by norm_num)
  | bool b => cases b <;> simp [Integral.value]
  | big v => exact absurd rfl (hb v)

/-- The `FloatForm` of a value of a floating-point type. -/
def Spec.Floating.form : Floating → FloatForm
  | .double b => .ofDouble b
  | .big u s => .ofBigDecimal u s

theorem Spec.Integral.Given.floatForm (jdk : JdkEnv) {x : Integral} {e : Entry} (h : x.Given e)
    (hb : ∀ v, x ≠ .big v) : (e.toTraits jdk).asFloatForm = .ok (.ofDouble (JavaDouble.ofInt x.value)) := by
  cases h with
  | prim h => cases x <;> simp [Integral.prim?] at h <;> subst h <;> rfl
  | boxed h => cases x <;> simp [Integral.prim?] at h <;> subst h <;> rfl
  | big v id => exact absurd rfl (hb v)

/-- The form an argument is given, up to the bits of a NaN. -/
theorem Spec.FloatReading.form {jdk : JdkEnv} {e : Entry} {r : Res Floating} (h : FloatReading jdk e r) :
    (e.toTraits jdk).asFloatForm = r.map Floating.form ∨
      ∃ b b', (e.toTraits jdk).asFloatForm = .ok (.ofDouble b) ∧ r = .ok (.double b') ∧
        doubleDatum b = .nan ∧ doubleDatum b' = .nan := by
  cases h with
  | integral h hb hn =>
    left
    rw [h.floatForm jdk hb, ← hn.unique (JavaDouble.ofInt_nearest (integral_abs_le hb))]; rfl
  | bigInteger v id => left; rfl
  | @float e b h b' hb =>
    obtain ⟨r, hr⟩ := h.traits (jdk := jdk)
    rw [← JavaDouble.ofFloat_datum] at hb
    rcases doubleDatum_inj hb with g | ⟨g1, g2⟩
    · left; rw [hr, g]; rfl
    · right; exact ⟨_, _, by rw [hr]; rfl, rfl, g2, g1⟩
  | text h hb =>
    obtain ⟨q, r, hr⟩ := h.traits (jdk := jdk)
    left; rw [hr]; simp only [charSequenceTraits, hb]; rfl
  | noNumber h hb =>
    obtain ⟨q, r, hr⟩ := h.traits (jdk := jdk)
    left; rw [hr]; simp only [charSequenceTraits, hb]; rfl
  | number l d i t id => left; rfl
  | date ha hb i t id => left; rw [millis_nearest _ ha hb]; rfl
  | calendar ha hb t id => left; rw [millis_nearest _ ha hb]; rfl
  | temporal h h1 h2 h3 ha hb hc s id =>
    left
    rw [instant_nearest h1 h2 h3 ha hb hc]
    simp only [Entry.toTraits, Obj.toTraits, temporalTraits, h]; rfl
  | noInstant h s id => left; simp only [Entry.toTraits, Obj.toTraits, temporalTraits, h]; rfl
  | null => left; rfl
  | other t id => left; rfl

theorem Spec.CharReading.char_eq {jdk : JdkEnv} {e : Entry} {r : Res JChar} (h : CharReading jdk e r) :
    (e.toTraits jdk).asChar = r := by
  cases h with
  | char h =>
    cases h with
    | prim h => simp [Integral.prim?] at h; subst h; rfl
    | boxed h id => simp [Integral.prim?] at h; subst h; rfl
  | text h => obtain ⟨q, r, hr⟩ := h.traits (jdk := jdk); rw [hr]; rfl
  | emptyText h => obtain ⟨q, r, hr⟩ := h.traits (jdk := jdk); rw [hr]; rfl
  | point t s id => rfl
  | number h hs ht =>
    have hi := h.int
    rw [← hi]
    have aux : ∀ (p : Prim) (ref : RefSlot), (∀ c, p = .char c → c < 65536) →
        (p.traits jdk ref).asChar = (p.traits jdk ref).asInt.map fun n => (n % 65536).toNat := by
      intro p ref hc
      cases p with
      | char c =>
        have := hc c rfl
        simp only [Prim.traits, charTraits, Except.map]
        congr 1; omega
      | _ => rfl
    have auxg : ∀ (x : Integral) (p : Prim), x.prim? = some p → ∀ c, p = .char c → c < 65536 := by
      intro x p hp c hc
      cases x <;> simp [Integral.prim?] at hp <;> rw [← hp] at hc <;> simp at hc
      rw [← hc]; omega
    cases h with
    | integral h hn =>
      cases h with
      | prim h => exact aux _ _ (auxg _ _ h)
      | boxed h id => exact aux _ _ (auxg _ _ h)
      | big v id => rfl
    | float h => obtain ⟨r, hr⟩ := h.traits (jdk := jdk); rw [hr]; exact aux _ _ (by simp)
    | double h hn => obtain ⟨r, hr⟩ := h.traits (jdk := jdk); rw [hr]; exact aux _ _ (by simp)
    | bigDecimal u s id hn => rfl
    | text h => exact absurd h (hs _)
    | noNumber h => exact absurd h (hs _)
    | number l d i t id => rfl
    | date ms i t id hn => rfl
    | calendar ms t id hn => rfl
    | temporal h hn s id => exact absurd rfl (ht _ _ _)
    | noInstant h s id => exact absurd rfl (ht _ _ _)
    | null => rfl
    | other t id => rfl

theorem longToInstant_eq {n : Int} : longToInstant n =
    if n < 0 then .error .illegalArgument
    else if n < 2 ^ 32 then .ok (.epochSecond n) else .ok (.epochMilli n) := by
  unfold longToInstant
  split_ifs <;> first | rfl | omega

theorem Spec.CountsTime.temporal {jdk : JdkEnv} {e : Entry} {n : Int} (h : CountsTime e n) :
    (e.toTraits jdk).asTemporal = (longToInstant n).map .stamp := by
  have k : ∀ r : Res InstantOf, (do return Temporal.stamp (← r) : Res Temporal) = r.map .stamp := by
    intro r; cases r <;> rfl
  cases h with
  | long h =>
    cases h with
    | prim h => simp [Integral.prim?] at h; subst h; exact k _
    | boxed h id => simp [Integral.prim?] at h; subst h; exact k _
  | @big v n h1 h2 i hk id =>
    have : wrap64 v = n := by
      unfold wrap64
      subst hk
      unfold minLong at h1; unfold maxLong at h2
      rw [Int.bmod_def]
      norm_num at *
      split_ifs <;> omega
    rw [← this]
    exact k _
  | number l d i t id => exact k _

theorem Spec.TimeReading.temporal_eq {jdk : JdkEnv} {e : Entry} {r : Res Temporal} (h : TimeReading e r) :
    (e.toTraits jdk).asTemporal = r := by
  cases h with
  | @int v e h =>
    have hv := v.isLt
    have k : (do return Temporal.stamp (← longToInstant v.toNat) : Res Temporal) =
        .ok (.stamp (.epochSecond v.toNat)) := by
      rw [longToInstant_eq, if_neg (by omega), if_pos (by omega)]; rfl
    cases h with
    | prim h => simp [Integral.prim?] at h; subst h; exact k
    | boxed h id => simp [Integral.prim?] at h; subst h; exact k
  | seconds h h1 h2 => rw [h.temporal, longToInstant_eq, if_neg (by omega), if_pos (by omega)]; rfl
  | millis h h1 => rw [h.temporal, longToInstant_eq, if_neg (by omega), if_neg (by omega)]; rfl
  | negative h h1 => rw [h.temporal, longToInstant_eq, if_pos (by omega)]; rfl
  | date ms i t id => rfl
  | calendar ms t id => rfl
  | temporal t s id => rfl
  | none h =>
    cases h with
    | @small x e h h1 h2 h3 h4 =>
      have aux : ∀ {p : Prim} {ref}, x.prim? = some p →
          (p.traits jdk ref).asTemporal = .error (refused .noTemporal) := by
        intro p ref hp
        cases x <;> simp [Integral.prim?] at hp <;> subst hp <;>
          first | rfl | exact absurd rfl (h1 _) | exact absurd rfl (h2 _) | exact absurd rfl (h4 _)
      cases h with
      | prim h => exact aux h
      | boxed h id => exact aux h
      | big v id => exact absurd rfl (h3 v)
    | char h =>
      cases h with
      | prim h => simp [Integral.prim?] at h; subst h; rfl
      | boxed h id => simp [Integral.prim?] at h; subst h; rfl
    | float h => obtain ⟨r, hr⟩ := h.traits (jdk := jdk); rw [hr]; rfl
    | double h => obtain ⟨r, hr⟩ := h.traits (jdk := jdk); rw [hr]; rfl
    | bigDecimal u s id => rfl
    | text h => obtain ⟨q, r, hr⟩ := h.traits (jdk := jdk); rw [hr]; rfl
    | null => rfl
    | other t id => rfl

/-- The choice, or the exception. -/
def chosen : Option (DateFmt × Temporal) → Res (DateFmt × Temporal)
  | some x => .ok x
  | none => .error (.printf .noDefaultFormatter)

theorem Spec.Formatted.choose {ctx : FormatContext} {t : Temporal} {r : Option (DateFmt × Temporal)}
    (h : Formatted ctx.dateTimeFormatter t r) : SeqFormatter.chooseFormatter ctx t = chosen r := by
  unfold SeqFormatter.chooseFormatter
  generalize ctx.dateTimeFormatter = f at *
  cases h with
  | pattern p t => rfl
  | instant h => simp only [h, if_true, chosen]
  | offset h => rcases h with h | h <;> simp [h, SeqFormatter.bestDefaultFormatter, chosen]
  | localDateTime h => simp [h, SeqFormatter.bestDefaultFormatter, chosen]
  | localDate h => simp [h, SeqFormatter.bestDefaultFormatter, chosen]
  | other h => simp [h, SeqFormatter.bestDefaultFormatter, chosen]

end FastPrintf
