/-
The string mode of `DoubleToDecimal`: the digits that go into the byte array.
-/
import Verif.Model.DoubleToString
import Verif.Spec.DoubleText
import Verif.Proofs.DecimalShape
import Verif.Proofs.DecimalText
import Verif.Proofs.DecimalUnique
import Verif.Proofs.Schubfach

namespace FastPrintf.DoubleToDecimal

open MathUtils MultiplyHigh Spec FormattedFPDecimal SeqFormatter

/-! ### The byte array -/

/-- The array shows the text `t` up to `index`. -/
structure Buf.Has (b : Buf) (t : JStr) : Prop where
  size : b.bytes.length = 24
  index : b.index + 1 = t.length
  text : b.bytes.take t.length = t

theorem Buf.Has.length_le {b : Buf} {t : JStr} (h : b.Has t) : t.length ≤ 24 := by
  have := congrArg List.length h.text
  rw [List.length_take, h.size] at this
  omega

/-- The computation ends with an array that shows `t`. -/
def Ends (r : Res Buf) (t : JStr) : Prop := ∃ b, r = .ok b ∧ b.Has t

theorem Buf.Has.ends {b : Buf} {t : JStr} (h : b.Has t) : Ends (.ok b) t := ⟨b, rfl, h⟩

theorem Ends.bind {r : Res Buf} {t u : JStr} {k : Buf → Res Buf} (h : Ends r t)
    (hk : ∀ b, b.Has t → Ends (k b) u) : Ends (r >>= k) u := by
  obtain ⟨b, rfl, hb⟩ := h
  exact hk b hb

theorem start_has : Buf.start.Has [] := ⟨by decide, by decide, by decide⟩

theorem Buf.Has.append {b : Buf} {t : JStr} (h : b.Has t) (hl : t.length < 24) {c : BitVec 32}
    (hc : c.toNat < 256) : Ends (b.append c) (t ++ [c.toNat]) := by
  have hi := h.index
  have hs := h.size
  have ht := h.text
  have e : (b.index + 1).toNat = t.length := by omega
  refine ⟨⟨b.bytes.set t.length c.toNat, b.index + 1⟩, ?_, ?_, ?_, ?_⟩
  · unfold Buf.append
    dsimp only
    rw [if_pos (by omega), e, Nat.mod_eq_of_lt hc]
  · simp [hs]
  · simp; omega
  · show (b.bytes.set t.length c.toNat).take (t ++ [c.toNat]).length = _
    rw [List.length_append, List.length_singleton, List.take_add_one, List.take_set_of_le (le_refl _), ht]
    simp [hs, hl]

theorem Buf.Has.appendDigit {b : Buf} {t : JStr} (h : b.Has t) (hl : t.length < 24) {d : BitVec 32} {n : Nat}
    (hd : d.toNat = n) (hn : n < 10) : Ends (b.appendDigit d) (t ++ [48 + n]) := by
  have e : (48#32 + d).toNat = 48 + n := by
    rw [BitVec.toNat_add, hd]
    simp only [BitVec.toNat_ofNat]
    omega
  have := h.append hl (c := 48#32 + d) (by omega)
  rw [e] at this
  exact this

theorem Buf.Has.last {b : Buf} {t : JStr} {c : JChar} (h : b.Has (t ++ [c])) : b.last = .ok c := by
  have hi := h.index
  have hs := h.size
  have ht := h.text
  have hl := h.length_le
  simp only [List.length_append, List.length_singleton] at hi hl
  have e : b.index.toNat = t.length := by omega
  have e2 : b.bytes[t.length]? = some c := by
    have := congrArg (fun l => l[t.length]?) ht
    simp only [List.length_append, List.length_singleton] at this
    rw [List.getElem?_take_of_lt (by omega)] at this
    simpa using this
  unfold Buf.last
  rw [if_pos (by omega), e, e2]

theorem Buf.Has.shorter {b : Buf} {t u : JStr} (h : b.Has (t ++ u)) :
    ({ b with index := b.index - u.length } : Buf).Has t := by
  have hi := h.index
  have ht := h.text
  refine ⟨h.size, ?_, ?_⟩
  · simp only [List.length_append] at hi; dsimp only; omega
  · have := congrArg (List.take t.length) ht
    rw [List.take_take, List.take_left] at this
    rwa [List.length_append, Nat.min_eq_left (by omega)] at this

/-- The loop stops at the last character that is not a zero. -/
theorem skipZeros_has {b : Buf} {t : JStr} {c : JChar} (hc : c ≠ 48) (k n : Nat) (hn : k < n)
    (h : b.Has (t ++ [c] ++ List.replicate k 48)) :
    Buf.skipZeros n b = .ok { b with index := b.index - k } := by
  induction k generalizing b n with
  | zero =>
    obtain ⟨n, rfl⟩ : ∃ m, n = m + 1 := ⟨n - 1, by omega⟩
    simp only [List.replicate_zero, List.append_nil] at h
    simp only [Buf.skipZeros, h.last, bind_ok, if_neg hc]
    simp [pure_eq_ok]
  | succ k ih =>
    obtain ⟨n, rfl⟩ : ∃ m, n = m + 1 := ⟨n - 1, by omega⟩
    rw [List.replicate_succ', ← List.append_assoc] at h
    have h' := h.shorter
    simp only [List.length_singleton, Nat.cast_one] at h'
    simp only [Buf.skipZeros, h.last, bind_ok, if_true]
    rw [ih n (by omega) h']
    simp only
    congr 2
    push_cast; ring

/-- The fraction without trailing zeros, but with one digit at least. -/
def trimFrac (fp : JStr) : JStr := if dropTrailing 48 fp = [] then [48] else dropTrailing 48 fp

theorem trimFrac_zeros (fp : JStr) (k : Nat) : trimFrac (fp ++ List.replicate k 48) = trimFrac fp := by
  have : dropTrailing 48 (fp ++ List.replicate k 48) = dropTrailing 48 fp := by
    induction k with
    | zero => simp
    | succ k ih => rw [List.replicate_succ', ← List.append_assoc, dropTrailing_snoc_same, ih]
  unfold trimFrac
  rw [this]

theorem Buf.Has.removeTrailingZeroes {b : Buf} {ip fp : JStr} (hf : fp ≠ [])
    (hdig : ∀ c ∈ fp, IsDigitIn 10 c) (h : b.Has (ip ++ 46 :: fp)) :
    Ends b.removeTrailingZeroes (ip ++ 46 :: trimFrac fp) := by
  obtain ⟨k, h1, h2⟩ := dropTrailing_eq 48 fp
  have hi := h.index
  have hlen : fp.length = (dropTrailing 48 fp).length + k := by
    conv_lhs => rw [h1]
    simp
  simp only [List.length_append, List.length_cons] at hi
  unfold Buf.removeTrailingZeroes trimFrac
  by_cases hd : dropTrailing 48 fp = []
  · rw [hd, List.nil_append] at h1
    rw [if_pos hd]
    have hk : k ≠ 0 := by rintro rfl; exact hf h1
    have h' : b.Has (ip ++ [46] ++ List.replicate k 48) := by
      rw [← h1]; simpa using h
    rw [skipZeros_has (by decide) k _ (by rw [hd] at hlen; simp at hlen; omega) h', bind_ok]
    have h3 := h'.shorter
    rw [List.length_replicate] at h3
    rw [h3.last, bind_ok, pure_eq_ok, if_pos rfl]
    obtain ⟨j, rfl⟩ : ∃ j, k = j + 1 := ⟨k - 1, by omega⟩
    have h4 : b.Has ((ip ++ 46 :: [48]) ++ List.replicate j 48) := by
      have : ip ++ [46] ++ List.replicate (j + 1) 48 = (ip ++ 46 :: [48]) ++ List.replicate j 48 := by
        rw [List.replicate_succ]; simp
      rwa [← this]
    have h5 := h4.shorter
    rw [List.length_replicate] at h5
    refine ⟨_, rfl, ?_⟩
    convert h5 using 2
    push_cast; ring
  · rw [if_neg hd]
    obtain ⟨d, c, hdc⟩ : ∃ d c, dropTrailing 48 fp = d ++ [c] :=
      ⟨_, _, (List.dropLast_append_getLast hd).symm⟩
    rw [hdc] at h1 h2 hlen ⊢
    have hc : c ≠ 48 := by rintro rfl; simp at h2
    have h' : b.Has ((ip ++ 46 :: d) ++ [c] ++ List.replicate k 48) := by
      have : (ip ++ 46 :: d) ++ [c] ++ List.replicate k 48 = ip ++ 46 :: fp := by
        conv_rhs => rw [h1]
        simp
      rwa [this]
    rw [skipZeros_has hc k _ (by simp at hlen; omega) h', bind_ok]
    have h3 := h'.shorter
    rw [List.length_replicate] at h3
    rw [h3.last, bind_ok, pure_eq_ok]
    have hfin : ({ b with index := b.index - k } : Buf).Has (ip ++ 46 :: (d ++ [c])) := by
      simpa using h3
    have hc46 : c ≠ 46 := (hdig c (by rw [h1]; simp)).ne_dot
    rw [if_neg hc46]
    exact hfin.ends

/-! ### Digits -/

/-- `y` holds the `k` digits of `a` in units of `2^28`. -/
structure Digits (k a : Nat) (y : BitVec 32) : Prop where
  small : a < 10 ^ k
  low : a * 2 ^ 28 ≤ y.toNat * 10 ^ k
  high : y.toNat * 10 ^ k < (a + 1) * 2 ^ 28

theorem Digits.lt {k a : Nat} {y : BitVec 32} (h : Digits k a y) : y.toNat < 2 ^ 28 := by
  have h1 : (a + 1) * 2 ^ 28 ≤ 10 ^ k * 2 ^ 28 := Nat.mul_le_mul_right _ h.small
  have h2 : y.toNat * 10 ^ k < 2 ^ 28 * 10 ^ k := by rw [Nat.mul_comm (2 ^ 28)]; exact lt_of_lt_of_le h.high h1
  exact lt_of_mul_lt_mul_right h2 (Nat.zero_le _)

theorem Digits.step {k a : Nat} {y : BitVec 32} (h : Digits (k + 1) a y) :
    ((10#32 * y) >>> 28).toNat = a / 10 ^ k ∧ a / 10 ^ k < 10 ∧ Digits k (a % 10 ^ k) ((10#32 * y) &&& MASK_28) := by
  have hlt := h.lt
  obtain ⟨h1, h2, h3⟩ := h
  generalize hw : y.toNat = w at *
  have e10 : (10#32 * y).toNat = 10 * w := by
    rw [BitVec.toNat_mul, hw]; simp only [BitVec.toNat_ofNat]; omega
  have es : ((10#32 * y) >>> 28).toNat = 10 * w / 2 ^ 28 := by
    rw [BitVec.toNat_ushiftRight, e10, Nat.shiftRight_eq_div_pow]
  have em : ((10#32 * y) &&& MASK_28).toNat = 10 * w % 2 ^ 28 := by
    rw [BitVec.toNat_and, e10, show (MASK_28).toNat = 2 ^ 28 - 1 from rfl, Nat.and_two_pow_sub_one_eq_mod]
  have hp : 0 < 10 ^ k := by positivity
  rw [pow_succ 10 k] at h1 h2 h3
  have hd : 10 * w / 2 ^ 28 = a / 10 ^ k := by
    have hq := Nat.div_add_mod a (10 ^ k)
    have hm := Nat.mod_lt a hp
    generalize a / 10 ^ k = q at *
    generalize a % 10 ^ k = r at *
    generalize 10 ^ k = p at *
    apply Nat.div_eq_of_lt_le
    · apply le_of_mul_le_mul_right _ hp
      calc q * 2 ^ 28 * p ≤ (p * q + r) * 2 ^ 28 := by nlinarith
        _ = a * 2 ^ 28 := by rw [hq]
        _ ≤ w * (p * 10) := h2
        _ = 10 * w * p := by ring
    · apply lt_of_mul_lt_mul_right _ (Nat.zero_le p)
      calc 10 * w * p = w * (p * 10) := by ring
        _ < (a + 1) * 2 ^ 28 := h3
        _ ≤ ((q + 1) * p) * 2 ^ 28 := by
            apply Nat.mul_le_mul_right; rw [← hq]; nlinarith
        _ = (q + 1) * 2 ^ 28 * p := by ring
  refine ⟨by rw [es, hd], ?_, Nat.mod_lt _ hp, ?_, ?_⟩
  · rw [Nat.div_lt_iff_lt_mul hp, Nat.mul_comm]; exact h1
  all_goals
    rw [em]
    have hq := Nat.div_add_mod a (10 ^ k)
    have hw2 := Nat.div_add_mod (10 * w) (2 ^ 28)
    rw [hd] at hw2
    generalize a / 10 ^ k = q at *
    generalize a % 10 ^ k = r at *
    generalize 10 ^ k = p at *
    generalize 10 * w % 2 ^ 28 = z at *
  · have e : 2 ^ 28 * q * p + z * p = w * (p * 10) := by rw [← Nat.add_mul, hw2]; ring
    have e2 : (p * q + r) * 2 ^ 28 = a * 2 ^ 28 := by rw [hq]
    nlinarith
  · have e : 2 ^ 28 * q * p + z * p = w * (p * 10) := by rw [← Nat.add_mul, hw2]; ring
    have e2 : (p * q + r + 1) * 2 ^ 28 = (a + 1) * 2 ^ 28 := by rw [hq]
    nlinarith

theorem digitsOf_succ_left (n x : Nat) (h : x / 10 ^ n < 10) :
    digitsOf (n + 1) x = [48 + x / 10 ^ n] ++ digitsOf n x := by
  rw [Nat.add_comm n 1, digitsOf_append]
  simp [digitsOf, Nat.mod_eq_of_lt h]

theorem digitLoop_ok (n k : Nat) (hn : n ≤ k) {a : Nat} {y : BitVec 32} (h : Digits k a y) {b : Buf}
    {t : JStr} (hb : b.Has t) (hl : t.length + n ≤ 24) :
    ∃ y' b', digitLoop n y b = .ok (y', b') ∧ Digits (k - n) (a % 10 ^ (k - n)) y' ∧
      b'.Has (t ++ digitsOf n (a / 10 ^ (k - n))) := by
  induction n generalizing k a y b t with
  | zero =>
    refine ⟨y, b, rfl, ?_, by simpa [digitsOf] using hb⟩
    rw [Nat.sub_zero, Nat.mod_eq_of_lt h.small]; exact h
  | succ n ih =>
    obtain ⟨k, rfl⟩ : ∃ j, k = j + 1 := ⟨k - 1, by omega⟩
    obtain ⟨h1, h2, h3⟩ := h.step
    obtain ⟨b1, e1, hb1⟩ := hb.appendDigit (by omega) h1 h2
    obtain ⟨y', b', e2, h4, h5⟩ := ih k (by omega) h3 hb1 (by simp; omega)
    refine ⟨y', b', ?_, ?_, ?_⟩
    · simp only [digitLoop, e1, bind_ok, e2]
    · rw [Nat.add_sub_add_right]
      rwa [Nat.mod_mod_of_dvd _ (pow_dvd_pow 10 (by omega))] at h4
    · rw [Nat.add_sub_add_right]
      have e3 : a / 10 ^ (k - n) / 10 ^ n = a / 10 ^ k := by
        rw [Nat.div_div_eq_div_mul, ← pow_add]; congr 2; omega
      have e4 : digitsOf n (a % 10 ^ k / 10 ^ (k - n)) = digitsOf n (a / 10 ^ (k - n)) := by
        have : a % 10 ^ k / 10 ^ (k - n) = a / 10 ^ (k - n) % 10 ^ n := by
          have hk : 10 ^ k = 10 ^ (k - n) * 10 ^ n := by rw [← pow_add]; congr 1; omega
          rw [hk, Nat.mod_mul_right_div_self]
        rw [this, digitsOf_mod]
      rw [digitsOf_succ_left n _ (by rw [e3]; exact h2), e3, ← List.append_assoc, ← e4]
      exact h5

/-! ### The constants -/

theorem high8 {f : Nat} (h : f ≤ 10 ^ 17) : f * 193428131138340668 / 2 ^ 64 / 2 ^ 20 = f / 10 ^ 8 := by
  omega

theorem y_digits {a : BitVec 32} (h : a.toNat < 10 ^ 8) : Digits 8 a.toNat (y a) := by
  have e0 : (a + 1#32).toNat = a.toNat + 1 := by
    rw [BitVec.toNat_add]; simp only [BitVec.toNat_ofNat]; omega
  have e1 : ((a + 1#32).signExtend 64).toNat = a.toNat + 1 := by
    rw [BitVec.signExtend_eq_setWidth_of_msb_false (by rw [BitVec.msb_eq_false_iff_two_mul_lt]; omega),
      BitVec.toNat_setWidth, e0]; omega
  have e2 : ((a + 1#32).signExtend 64 <<< 28).toNat = (a.toNat + 1) * 2 ^ 28 := by
    rw [BitVec.toNat_shiftLeft, e1, Nat.shiftLeft_eq]; omega
  have e3 : (multiplyHigh ((a + 1#32).signExtend 64 <<< 28) 193428131138340668#64 >>> 20).toNat =
      (a.toNat + 1) * 2 ^ 28 / 10 ^ 8 := by
    rw [BitVec.toNat_ushiftRight, Nat.shiftRight_eq_div_pow,
      multiplyHigh_toNat (by rw [e2]; omega) (by decide), e2]
    exact high8 (by omega)
  have e4 : (y a).toNat = (a.toNat + 1) * 2 ^ 28 / 10 ^ 8 - 1 := by
    unfold y
    rw [BitVec.toNat_sub]
    simp only [BitVec.truncate_eq_setWidth, BitVec.toNat_setWidth, e3, BitVec.toNat_ofNat]
    omega
  refine ⟨h, ?_, ?_⟩ <;> rw [e4] <;> omega

theorem append8Digits_ok {m : BitVec 32} (h : m.toNat < 10 ^ 8) {b : Buf} {t : JStr} (hb : b.Has t)
    (hl : t.length + 8 ≤ 24) : Ends (append8Digits m b) (t ++ digitsOf 8 m.toNat) := by
  obtain ⟨y', b', e, -, h2⟩ := digitLoop_ok 8 8 (le_refl _) (y_digits h) hb hl
  refine ⟨b', ?_, by simpa using h2⟩
  unfold append8Digits
  rw [e]; rfl

theorem lowDigits_ok {l : BitVec 32} (h : l.toNat < 10 ^ 8) {b : Buf} {ip fp : JStr} (hf : fp ≠ [])
    (hd : ∀ c ∈ fp, IsDigitIn 10 c) (hb : b.Has (ip ++ 46 :: fp)) (hl : (ip ++ 46 :: fp).length + 8 ≤ 24) :
    Ends (lowDigits l b) (ip ++ 46 :: trimFrac (fp ++ digitsOf 8 l.toNat)) := by
  unfold lowDigits
  by_cases h0 : l = 0#32
  · subst h0
    rw [if_neg (by simp)]
    have : digitsOf 8 (0#32).toNat = List.replicate 8 48 := digitsOf_zero 8
    rw [this, trimFrac_zeros]
    exact hb.removeTrailingZeroes hf hd
  · rw [if_pos h0]
    refine (append8Digits_ok h hb hl).bind fun b' hb' => ?_
    refine Buf.Has.removeTrailingZeroes (by simp [hf]) ?_ (by simpa using hb')
    intro c hc
    rcases List.mem_append.1 hc with hc | hc
    · exact hd c hc
    · exact digitsOf_isDigit _ _ c hc

theorem trimFrac_length {fp : JStr} (h : fp ≠ []) : (trimFrac fp).length ≤ fp.length := by
  unfold trimFrac
  obtain ⟨k, h1, -⟩ := dropTrailing_eq 48 fp
  have hl := congrArg List.length h1
  have : 0 < fp.length := List.length_pos_of_ne_nil h
  rw [List.length_append] at hl
  split_ifs
  · exact this
  · omega

/-! ### The exponent -/

theorem zeroLoop_ok (n : Nat) {b : Buf} {t : JStr} (hb : b.Has t) (hl : t.length + n ≤ 24) :
    Ends (zeroLoop n b) (t ++ List.replicate n 48) := by
  induction n generalizing b t with
  | zero => simpa [zeroLoop] using hb.ends
  | succ n ih =>
    simp only [zeroLoop]
    refine (hb.appendDigit (by omega) (n := 0) rfl (by omega)).bind fun b' hb' => ?_
    have := ih hb' (by simp; omega)
    rw [List.replicate_succ]
    simpa using this

theorem tenths : ∀ k < 100, k * 103 / 2 ^ 10 = k / 10 := by decide +kernel
theorem hundredths : ∀ k < 1000, k * 1311 / 2 ^ 17 = k / 100 := by decide +kernel

/-- The sign and digits of an exponent. -/
def exponentText (x : Int) : JStr := (if x < 0 then [45] else []) ++ toRadix 10 x.natAbs

theorem exponentText_length {x : Int} (h : x.natAbs < 1000) : (exponentText x).length ≤ 4 := by
  unfold exponentText
  have : (toRadix 10 x.natAbs).length ≤ 3 := (toRadix_length_le (by omega) (by omega) (by omega)).2 (by simpa using h)
  split_ifs <;> simp <;> omega

theorem exponent_ok {x : Int} (h : x.natAbs < 1000) {b : Buf} {t : JStr} (hb : b.Has t)
    (hl : t.length + 5 ≤ 24) : Ends (exponent x b) (t ++ 69 :: exponentText x) := by
  unfold exponent
  refine (hb.append (c := 69#32) (by omega) (by decide)).bind fun b1 hb1 => ?_
  have h2 : Ends (b1.appendIf (x < 0) 45#32) (t ++ 69 :: (if x < 0 then [45] else [])) := by
    unfold Buf.appendIf
    by_cases hx : x < 0
    · rw [if_pos (by simpa using hx), if_pos hx]
      have := hb1.append (c := 45#32) (by simp; omega) (by decide)
      simpa using this
    · rw [if_neg (by simpa using hx), if_neg hx]; exact hb1.ends
  have hpre : (t ++ 69 :: (if x < 0 then [45] else [])).length + 3 ≤ 24 := by
    split_ifs <;> simp <;> omega
  refine h2.bind fun b2 hb2 => ?_
  have eabs : (if x < 0 then -x else x) = (x.natAbs : Int) := by split_ifs <;> omega
  rw [eabs]
  unfold exponentText
  generalize hpr : (t ++ 69 :: (if x < 0 then [45] else [])) = pre at *
  have eout : t ++ 69 :: ((if x < 0 then [45] else []) ++ toRadix 10 x.natAbs) = pre ++ toRadix 10 x.natAbs := by
    rw [← hpr]; simp
  rw [eout]
  clear hpr eout h2 hb1 hb eabs
  generalize x.natAbs = n at *
  have en : (BitVec.ofInt 32 (n : Int)).toNat = n := by
    rw [BitVec.ofInt_natCast, BitVec.toNat_ofNat]; omega
  generalize hev : BitVec.ofInt 32 (n : Int) = v at *
  have hvi : v.toInt = n := by rw [BitVec.toInt_eq_toNat_of_lt (by omega), en]
  have hslt : v.slt 10#32 = decide (n < 10) := by
    rw [BitVec.slt_eq_decide, hvi]
    have : (10#32).toInt = 10 := by decide
    rw [this]; simp only [decide_eq_decide]; omega
  have hsle : (100#32).sle v = decide (100 ≤ n) := by
    rw [BitVec.sle_eq_decide, hvi]
    have : (100#32).toInt = 100 := by decide
    rw [this]; simp only [decide_eq_decide]; omega
  simp only [hslt, hsle]
  by_cases h10 : n < 10
  · rw [if_pos (by simpa using h10)]
    have e : toRadix 10 n = [48 + n] := by
      rcases Nat.eq_zero_or_pos n with rfl | hp
      · rfl
      · rw [toRadix_eq_digitsOf (k := 0) (by rw [pow_zero]; exact hp) (by simpa using h10)]
        simp [digitsOf, Nat.mod_eq_of_lt h10]
    rw [e]
    exact hb2.appendDigit (by omega) en h10
  · rw [if_neg (by simpa using h10)]
    have two : ∀ {b : Buf} {p : JStr} {w : BitVec 32} {k : Nat}, b.Has p → p.length + 2 ≤ 24 → w.toNat = k → k < 100 →
        Ends (b.appendDigit ((w * 103#32) >>> 10) >>= fun b => b.appendDigit (w - 10#32 * ((w * 103#32) >>> 10)))
          (p ++ [48 + k / 10, 48 + k % 10]) := by
      intro b p w k hb hp hw hk
      have e1 : ((w * 103#32) >>> 10).toNat = k / 10 := by
        rw [BitVec.toNat_ushiftRight, BitVec.toNat_mul, hw, Nat.shiftRight_eq_div_pow,
          Nat.mod_eq_of_lt (by simp only [BitVec.toNat_ofNat]; omega)]
        exact tenths k hk
      have e2 : (w - 10#32 * ((w * 103#32) >>> 10)).toNat = k % 10 := by
        rw [BitVec.toNat_sub, BitVec.toNat_mul, e1, hw]
        simp only [BitVec.toNat_ofNat]; omega
      refine (hb.appendDigit (by omega) e1 (by omega)).bind fun b' hb' => ?_
      have := hb'.appendDigit (by simp; omega) e2 (by omega)
      simpa using this
    by_cases h100 : 100 ≤ n
    · have e1 : ((v * 1311#32) >>> 17).toNat = n / 100 := by
        rw [BitVec.toNat_ushiftRight, BitVec.toNat_mul, en, Nat.shiftRight_eq_div_pow,
          Nat.mod_eq_of_lt (by simp only [BitVec.toNat_ofNat]; omega)]
        exact hundredths n h
      have e2 : (v - 100#32 * ((v * 1311#32) >>> 17)).toNat = n % 100 := by
        rw [BitVec.toNat_sub, BitVec.toNat_mul, e1, en]
        simp only [BitVec.toNat_ofNat]; omega
      simp only [h100, decide_true, if_true, Buf.appendIf]
      refine (hb2.appendDigit (by omega) e1 (by omega)).bind fun b3 hb3 => ?_
      have := two hb3 (by simp; omega) e2 (by omega)
      rw [toRadix_eq_digitsOf (k := 2) (by omega) (by omega)]
      have e3 : digitsOf 3 n = [48 + n / 100, 48 + n % 100 / 10, 48 + n % 100 % 10] := by
        simp only [digitsOf, List.nil_append, List.cons_append, List.cons.injEq, and_true]
        omega
      rw [e3]
      simpa using this
    · simp only [h100, decide_false, Bool.false_eq_true, if_false, Buf.appendIf, bind_ok]
      have := two hb2 (by omega) en (by omega)
      rw [toRadix_eq_digitsOf (k := 1) (by omega) (by omega)]
      have e3 : digitsOf 2 n = [48 + n / 10, 48 + n % 10] := by
        simp only [digitsOf, List.nil_append, List.cons_append, List.cons.injEq, and_true]
        omega
      rw [e3]
      exact this

/-! ### The whole text -/

/-- The text of the 17-digit number `F` with the point after `e` digits. -/
def charsText (F : Nat) (e : Int) : JStr :=
  if 0 < e ∧ e ≤ 7 then digitsOf e.toNat (F / 10 ^ (17 - e.toNat)) ++ 46 :: trimFrac (digitsOf (17 - e.toNat) F)
  else if -3 < e ∧ e ≤ 0 then 48 :: 46 :: trimFrac (List.replicate (-e).toNat 48 ++ digitsOf 17 F)
  else digitsOf 1 (F / 10 ^ 16) ++ 46 :: trimFrac (digitsOf 16 F) ++ 69 :: exponentText (e - 1)

theorem digits_split (F : Nat) :
    digitsOf 16 F = digitsOf 8 (F / 10 ^ 8 % 10 ^ 8) ++ digitsOf 8 (F % 10 ^ 8) := by
  rw [digitsOf_mod, digitsOf_mod]; exact digitsOf_append 8 8 F

theorem digits_split17 (F : Nat) (h : F < 10 ^ 17) :
    digitsOf 17 F = [48 + F / 10 ^ 16] ++ digitsOf 16 F :=
  digitsOf_succ_left 16 F (by omega)

theorem toChars_ok {F : Nat} (h2 : F < 10 ^ 17) {h m l : BitVec 32}
    (eh : h.toNat = F / 10 ^ 16) (em : m.toNat = F / 10 ^ 8 % 10 ^ 8) (el : l.toNat = F % 10 ^ 8) {e : Int}
    (he : (e - 1).natAbs < 1000) {b : Buf} {t : JStr} (hb : b.Has t) (ht : t.length ≤ 1) :
    Ends (if 0 < e ∧ e ≤ 7 then toChars1 h m l e b
      else if -3 < e ∧ e ≤ 0 then toChars2 h m l e b else toChars3 h m l e b) (t ++ charsText F e) := by
  have hm : m.toNat < 10 ^ 8 := by omega
  have hl : l.toNat < 10 ^ 8 := by omega
  have hh : F / 10 ^ 16 < 10 := by omega
  unfold charsText
  by_cases c1 : 0 < e ∧ e ≤ 7
  · rw [if_pos c1, if_pos c1]
    obtain ⟨j, hj⟩ : ∃ j : Nat, e = j + 1 := ⟨(e - 1).toNat, by omega⟩
    subst hj
    have hj7 : j ≤ 6 := by omega
    have ej : ((j : Int) + 1).toNat = j + 1 := by omega
    have ej1 : ((j : Int) + 1 - 1).toNat = j := by omega
    have ej2 : (9 - ((j : Int) + 1)).toNat = 8 - j := by omega
    unfold toChars1
    rw [ej, ej1, ej2]
    refine (hb.appendDigit (by omega) eh hh).bind fun b1 hb1 => ?_
    obtain ⟨y2, b2, e2, d2, hb2⟩ := digitLoop_ok j 8 (by omega) (y_digits hm) hb1 (by simp; omega)
    rw [e2, bind_ok]
    refine (hb2.append (c := 46#32) (by simp; omega) (by decide)).bind fun b3 hb3 => ?_
    obtain ⟨y4, b4, e4, d4, hb4⟩ := digitLoop_ok (8 - j) (8 - j) (le_refl _) d2 hb3 (by simp; omega)
    dsimp only
    rw [e4, bind_ok]
    rw [Nat.sub_self, pow_zero, Nat.div_one, digitsOf_mod] at hb4
    have key := lowDigits_ok hl (b := b4) (ip := t ++ [48 + F / 10 ^ 16] ++ digitsOf j (m.toNat / 10 ^ (8 - j)))
      (fp := digitsOf (8 - j) m.toNat) (by
        intro h; have := congrArg List.length h; simp at this; omega) (digitsOf_isDigit _ _)
      (by simpa using hb4) (by simp; omega)
    convert key using 1
    rw [em, el]
    have a1 : digitsOf (j + 1) (F / 10 ^ (17 - (j + 1))) =
        [48 + F / 10 ^ 16] ++ digitsOf j (F / 10 ^ 8 % 10 ^ 8 / 10 ^ (8 - j)) := by
      have g1 : F / 10 ^ (17 - (j + 1)) / 10 ^ j = F / 10 ^ 16 := by
        rw [Nat.div_div_eq_div_mul, ← pow_add]; congr 2; omega
      rw [digitsOf_succ_left _ _ (by rw [g1]; exact hh), g1]
      congr 1
      have g2 : F / 10 ^ (17 - (j + 1)) = F / 10 ^ 8 / 10 ^ (8 - j) := by
        rw [Nat.div_div_eq_div_mul, ← pow_add]; congr 2; omega
      have g3 : F / 10 ^ 8 % 10 ^ 8 / 10 ^ (8 - j) = F / 10 ^ 8 / 10 ^ (8 - j) % 10 ^ j := by
        have hk : 10 ^ 8 = 10 ^ (8 - j) * 10 ^ j := by rw [← pow_add]; congr 1; omega
        conv_lhs => rw [hk, ← hk]
        rw [show F / 10 ^ 8 % 10 ^ 8 = F / 10 ^ 8 % (10 ^ (8 - j) * 10 ^ j) by rw [← hk], Nat.mod_mul_right_div_self]
      rw [g2, g3, digitsOf_mod]
    have a2 : digitsOf (17 - (j + 1)) F = digitsOf (8 - j) (F / 10 ^ 8 % 10 ^ 8) ++ digitsOf 8 (F % 10 ^ 8) := by
      have g1 : 17 - (j + 1) = (8 - j) + 8 := by omega
      rw [g1, digitsOf_append, digitsOf_mod]
      congr 1
      rw [← digitsOf_mod (8 - j) (F / 10 ^ 8 % 10 ^ 8),
        Nat.mod_mod_of_dvd _ (pow_dvd_pow 10 (by omega)), digitsOf_mod]
    rw [a1, a2]
    simp
  · rw [if_neg c1, if_neg c1]
    by_cases c2 : -3 < e ∧ e ≤ 0
    · rw [if_pos c2, if_pos c2]
      unfold toChars2
      refine (hb.appendDigit (by omega) (n := 0) rfl (by omega)).bind fun b1 hb1 => ?_
      refine (hb1.append (c := 46#32) (by simp; omega) (by decide)).bind fun b2 hb2 => ?_
      refine (zeroLoop_ok (-e).toNat hb2 (by simp; omega)).bind fun b3 hb3 => ?_
      refine (hb3.appendDigit (by simp; omega) eh hh).bind fun b4 hb4 => ?_
      refine (append8Digits_ok hm hb4 (by simp; omega)).bind fun b5 hb5 => ?_
      have key := lowDigits_ok hl (b := b5) (ip := t ++ [48])
        (fp := List.replicate (-e).toNat 48 ++ [48 + F / 10 ^ 16] ++ digitsOf 8 m.toNat) (by simp)
        (by
          intro c hc
          simp only [List.mem_append, List.mem_singleton] at hc
          rcases hc with (hc | rfl) | hc
          · rw [(List.mem_replicate.1 hc).2]; exact isDigit_zero
          · refine digitsOf_isDigit 1 (F / 10 ^ 16) (48 + F / 10 ^ 16) ?_
            rw [digitsOf, Nat.mod_eq_of_lt hh]; simp
          · exact digitsOf_isDigit _ _ c hc)
        (by simpa using hb5) (by simp; omega)
      convert key using 1
      rw [digits_split17 F h2, digits_split F, em, el]
      simp
    · rw [if_neg c2, if_neg c2]
      unfold toChars3
      refine (hb.appendDigit (by omega) eh hh).bind fun b1 hb1 => ?_
      refine (hb1.append (c := 46#32) (by simp; omega) (by decide)).bind fun b2 hb2 => ?_
      refine (append8Digits_ok hm hb2 (by simp; omega)).bind fun b3 hb3 => ?_
      have key := lowDigits_ok hl (b := b3) (ip := t ++ [48 + F / 10 ^ 16]) (fp := digitsOf 8 m.toNat)
        (by intro h; have := congrArg List.length h; simp at this) (digitsOf_isDigit _ _)
        (by simpa using hb3) (by simp; omega)
      refine key.bind fun b4 hb4 => ?_
      have hlen : (trimFrac (digitsOf 8 m.toNat ++ digitsOf 8 l.toNat)).length ≤ 16 := by
        have := trimFrac_length (fp := digitsOf 8 m.toNat ++ digitsOf 8 l.toNat) (by
          intro h; have := congrArg List.length h; simp at this)
        simpa using this
      have := exponent_ok he hb4 (by simp; omega)
      convert this using 1
      have e1 : digitsOf 1 (F / 10 ^ 16) = [48 + F / 10 ^ 16] := by
        rw [digitsOf, Nat.mod_eq_of_lt hh]; rfl
      rw [digits_split F, em, el, e1]
      simp

theorem high1 {x : Nat} (h : x < 10 ^ 9) : x * 1441151881 / 2 ^ 57 = x / 10 ^ 8 := by omega

theorem toCharsAt_ok {f : BitVec 64} {n : Nat} (hn : 1 ≤ n) (hn17 : n ≤ 17)
    (h2 : f.toNat < 10 ^ n) {e : Int} (he : (e + n - 1).natAbs < 1000) {b : Buf} {t : JStr} (hb : b.Has t)
    (ht : t.length ≤ 1) :
    Ends (toCharsAt f e n b) (t ++ charsText (f.toNat * 10 ^ (17 - n)) (e + n)) := by
  have hp : pow10 (H - n) = .ok (10 ^ (17 - n)) := by
    have : H - (n : Int) = ((17 - n : Nat) : Int) := by unfold H; omega
    rw [this]; exact pow10_ok (by omega)
  have hF2 : f.toNat * 10 ^ (17 - n) < 10 ^ 17 := by
    calc f.toNat * 10 ^ (17 - n) < 10 ^ n * 10 ^ (17 - n) := Nat.mul_lt_mul_of_pos_right h2 (by positivity)
      _ = 10 ^ 17 := by rw [← pow_add]; congr 1; omega
  have h10 : 10 ^ (17 - n) < 2 ^ 64 := by
    have : 10 ^ (17 - n) ≤ 10 ^ 17 := Nat.pow_le_pow_right (by omega) (by omega)
    omega
  have eF : (f * BitVec.ofNat 64 (10 ^ (17 - n))).toNat = f.toNat * 10 ^ (17 - n) := by
    rw [BitVec.toNat_mul, BitVec.toNat_ofNat, Nat.mod_eq_of_lt h10, Nat.mod_eq_of_lt (by omega)]
  unfold toCharsAt
  rw [hp, bind_ok]
  dsimp only
  generalize f * BitVec.ofNat 64 (10 ^ (17 - n)) = F' at *
  generalize f.toNat * 10 ^ (17 - n) = F at *
  have ehm : (multiplyHigh F' 193428131138340668#64 >>> 20).toNat = F / 10 ^ 8 := by
    rw [BitVec.toNat_ushiftRight, Nat.shiftRight_eq_div_pow, multiplyHigh_toNat (by omega) (by decide), eF]
    exact high8 (by omega)
  generalize multiplyHigh F' 193428131138340668#64 >>> 20 = hm at *
  have el : (BitVec.truncate 32 (F' - 100000000#64 * hm)).toNat = F % 10 ^ 8 := by
    rw [BitVec.truncate_eq_setWidth, BitVec.toNat_setWidth, BitVec.toNat_sub, BitVec.toNat_mul, eF, ehm]
    simp only [BitVec.toNat_ofNat]
    omega
  have eh : (BitVec.truncate 32 ((hm * 1441151881#64) >>> 57)).toNat = F / 10 ^ 16 := by
    rw [BitVec.truncate_eq_setWidth, BitVec.toNat_setWidth, BitVec.toNat_ushiftRight, BitVec.toNat_mul, ehm,
      Nat.shiftRight_eq_div_pow, Nat.mod_eq_of_lt (b := 2 ^ 64) (by simp only [BitVec.toNat_ofNat]; omega)]
    have : F / 10 ^ 8 * 1441151881 / 2 ^ 57 = F / 10 ^ 16 := by
      rw [high1 (by omega), Nat.div_div_eq_div_mul, ← pow_add]
    rw [show (1441151881#64).toNat = 1441151881 from rfl, this]
    omega
  generalize BitVec.truncate 32 ((hm * 1441151881#64) >>> 57) = h at *
  have e0 : (100000000#32 * h).toNat = 100000000 * (F / 10 ^ 16) := by
    rw [BitVec.toNat_mul, eh]; simp only [BitVec.toNat_ofNat]; omega
  have e1 : ((100000000#32 * h).signExtend 64).toNat = 100000000 * (F / 10 ^ 16) := by
    rw [BitVec.signExtend_eq_setWidth_of_msb_false (by rw [BitVec.msb_eq_false_iff_two_mul_lt]; omega),
      BitVec.toNat_setWidth, e0]; omega
  have em : (BitVec.truncate 32 (hm - (100000000#32 * h).signExtend 64)).toNat = F / 10 ^ 8 % 10 ^ 8 := by
    rw [BitVec.truncate_eq_setWidth, BitVec.toNat_setWidth, BitVec.toNat_sub, e1, ehm]
    omega
  exact toChars_ok hF2 eh em el he hb ht

/-! ### The text is the documented one -/

theorem pointText {ip fp : JStr} (h : IsNumeral 10 ip) (hz : NoExtraZero ip) (hf : ∀ c ∈ fp, IsDigitIn 10 c)
    {v : ℚ} (hv : (valueIn 10 (ip ++ fp) : ℚ) = v * 10 ^ fp.length) :
    PointText v (ip ++ 46 :: trimFrac fp) := by
  have hw : Written (ip ++ 46 :: fp) ip fp := ⟨h, hf, .inl rfl⟩
  have hm := hw.minimal hz hv
  rw [stripText_point hw.no_dot] at hm
  refine ⟨_, hm, ?_⟩
  unfold trimFrac fraction
  by_cases hd : dropTrailing 48 fp = []
  · simp [hd, hw.no_dot]
  · simp [hd]

theorem charsText_java {F : Nat} (h1 : 10 ^ 16 ≤ F) (h2 : F < 10 ^ 17) (e : Int) :
    JavaText ((F : ℚ) * 10 ^ (e - 17)) (charsText F e) := by
  have q1 : (10 : ℚ) ^ (e - 1) ≤ F * 10 ^ (e - 17) := by
    rw [show e - 1 = 16 + (e - 17) by ring, zpow_add₀ (by norm_num)]
    have : (10 : ℚ) ^ (16 : Int) ≤ F := by exact_mod_cast h1
    exact mul_le_mul_of_nonneg_right this (by positivity)
  have q2 : (F : ℚ) * 10 ^ (e - 17) < 10 ^ e := by
    have e0 : (10 : ℚ) ^ e = 10 ^ (17 : Int) * 10 ^ (e - 17) := by
      rw [← zpow_add₀ (by norm_num)]; congr 1; ring
    rw [e0]
    have : (F : ℚ) < (10 : ℚ) ^ (17 : Int) := by exact_mod_cast h2
    exact mul_lt_mul_of_pos_right this (by positivity)
  have hplain : (10 ^ (-3 : Int) ≤ (F : ℚ) * 10 ^ (e - 17) ∧ (F : ℚ) * 10 ^ (e - 17) < 10 ^ 7) ↔
      (-3 < e ∧ e ≤ 7) := by
    have e7 : (10 : ℚ) ^ 7 = 10 ^ (7 : Int) := by norm_num
    rw [e7]
    constructor
    · rintro ⟨a, b⟩
      have a' := zpow10_lt (lt_of_le_of_lt a q2)
      have b' := zpow10_lt (lt_of_le_of_lt q1 b)
      omega
    · rintro ⟨a, b⟩
      exact ⟨le_trans (zpow_le_zpow_right₀ (by norm_num) (by omega)) q1,
        lt_of_lt_of_le q2 (zpow_le_zpow_right₀ (by norm_num) b)⟩
  have one : digitsOf 1 (F / 10 ^ 16) = [48 + F / 10 ^ 16] := by
    rw [digitsOf, Nat.mod_eq_of_lt (by omega)]; rfl
  unfold JavaText charsText
  by_cases c1 : 0 < e ∧ e ≤ 7
  · rw [if_pos (hplain.2 ⟨by omega, c1.2⟩), if_pos c1]
    obtain ⟨j, rfl⟩ : ∃ j : Nat, e = j + 1 := ⟨(e - 1).toNat, by omega⟩
    have ej : ((j : Int) + 1).toNat = j + 1 := by omega
    rw [ej]
    have hlo : 10 ^ j ≤ F / 10 ^ (17 - (j + 1)) := by
      rw [Nat.le_div_iff_mul_le (by positivity), ← pow_add]
      rwa [show j + (17 - (j + 1)) = 16 by omega]
    have hhi : F / 10 ^ (17 - (j + 1)) < 10 ^ (j + 1) := by
      rw [Nat.div_lt_iff_lt_mul (by positivity), ← pow_add]
      rwa [show j + 1 + (17 - (j + 1)) = 17 by omega]
    have hr := toRadix_eq_digitsOf hlo hhi
    rw [← hr]
    refine pointText (toRadix_isNumeral (by omega) (by omega) _) (toRadix_minimal (by omega) _)
      (digitsOf_isDigit _ _) ?_
    rw [hr, ← digitsOf_append, valueIn_digitsOf, Nat.mod_eq_of_lt (by
      rw [show j + 1 + (17 - (j + 1)) = 17 by omega]; exact h2), digitsOf_length, mul_assoc]
    rw [← zpow_natCast, ← zpow_add₀ (by norm_num)]
    rw [show ((j : Int) + 1 - 17 + ((17 - (j + 1) : Nat) : Int)) = 0 by omega]
    simp
  · rw [if_neg c1]
    by_cases c2 : -3 < e ∧ e ≤ 0
    · rw [if_pos (hplain.2 ⟨c2.1, by omega⟩), if_pos c2]
      obtain ⟨j, rfl⟩ : ∃ j : Nat, e = -(j : Int) := ⟨(-e).toNat, by omega⟩
      rw [neg_neg, Int.toNat_natCast]
      refine pointText (ip := [48]) ⟨by simp, by intro c hc; rw [List.mem_singleton.1 hc]; exact isDigit_zero⟩
        (.inl rfl) ?_ ?_
      · intro c hc
        rcases List.mem_append.1 hc with hc | hc
        · rw [(List.mem_replicate.1 hc).2]; exact isDigit_zero
        · exact digitsOf_isDigit _ _ c hc
      · have e1 : [48] ++ (List.replicate j 48 ++ digitsOf 17 F) = List.replicate (j + 1) 48 ++ digitsOf 17 F := by
          rw [List.replicate_succ]; simp
        rw [e1, valueIn_append, valueIn_replicate_zero, valueIn_digitsOf, Nat.mod_eq_of_lt h2]
        simp only [List.length_append, List.length_replicate, digitsOf_length, zero_mul, zero_add]
        rw [mul_assoc, ← zpow_natCast, ← zpow_add₀ (by norm_num)]
        rw [show (-(j : Int) - 17 + ((j + 17 : Nat) : Int)) = 0 by push_cast; ring]
        simp
    · rw [if_neg (fun h => by have := hplain.1 h; omega), if_neg c2]
      refine ⟨e - 1, digitsOf 1 (F / 10 ^ 16) ++ 46 :: trimFrac (digitsOf 16 F), exponentText (e - 1), q1,
        by rwa [sub_add_cancel], ?_, ?_, rfl⟩
      · refine pointText ⟨by rw [one]; simp, digitsOf_isDigit _ _⟩ (.inr ?_) (digitsOf_isDigit _ _) ?_
        · rw [one]; simp; omega
        · rw [← digitsOf_append 1 16 F, valueIn_digitsOf, Nat.mod_eq_of_lt h2, digitsOf_length,
            mul_assoc (F : ℚ), ← zpow_add₀ (by norm_num), mul_assoc, ← zpow_natCast,
            ← zpow_add₀ (by norm_num)]
          rw [show (e - 17 + -(e - 1) + ((16 : Nat) : Int)) = 0 by push_cast; ring]
          simp
      · refine ⟨toRadix 10 (e - 1).natAbs, ⟨toRadix_isNumeral (by omega) (by omega) _,
          toRadix_minimal (by omega) _, valueIn_toRadix (by omega) (by omega) _⟩, ?_⟩
        unfold exponentText
        split_ifs <;> simp

end FastPrintf.DoubleToDecimal
