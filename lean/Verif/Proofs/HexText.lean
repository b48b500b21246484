/-
The texts produced by `Double.toHexString` and `DoubleWrapper.hexLayout`.
-/
import Verif.Proofs.HexBits
import Verif.Proofs.DoubleFormat
import Verif.Spec.Hex

namespace FastPrintf
open Spec JavaDouble SeqFormatter

/-! ### The fraction digits -/

theorem hex13_ok {f : Nat} (hf : f < 2 ^ 52) :
    (hex13 f).length = 13 ∧ (∀ c ∈ hex13 f, IsDigitIn 16 c) ∧ valueIn 16 (hex13 f) = f := by
  have hn := toRadix_isNumeral (b := 16) (by norm_num) (by norm_num) (2 ^ 52 + f)
  have hv := valueIn_toRadix (b := 16) (by norm_num) (by norm_num) (2 ^ 52 + f)
  have h14 := (toRadix_length_le (b := 16) (by norm_num) (by norm_num) (n := 2 ^ 52 + f) (k := 14) (by norm_num)).2
    (by norm_num; omega)
  have h13 : ¬ (toRadix 16 (2 ^ 52 + f)).length ≤ 13 := fun h => by
    have := (toRadix_length_le (b := 16) (by norm_num) (by norm_num) (k := 13) (by norm_num)).1 h
    norm_num at this
  unfold hex13
  generalize toRadix 16 (2 ^ 52 + f) = t at *
  cases t with
  | nil => simp at h13
  | cons c t =>
    have hl : t.length = 13 := by simp only [List.length_cons] at h13 h14; omega
    rw [List.drop_one, List.tail_cons]
    have hd : ∀ c ∈ t, IsDigitIn 16 c := fun x hx => hn.2 x (List.mem_cons_of_mem _ hx)
    have hlt := valueIn_lt (b := 16) (by norm_num) t (fun c hc => (hd c hc).2)
    refine ⟨hl, hd, ?_⟩
    simp only [valueIn] at hv
    rw [hl] at hv hlt
    have := (hn.2 c (by simp)).2
    norm_num at hv hlt hf ⊢
    generalize digitVal c = k at *
    omega

theorem dropTrailingZeros_eq (t : JStr) : dropTrailingZeros t = dropTrailing 48 t := rfl

/-- The fraction digits of `Double.toHexString`. -/
def hexFrac (f : Nat) : JStr := if f = 0 then js! "0" else dropTrailingZeros (hex13 f)

theorem dropTrailing_length_le (c : JChar) (t : JStr) : (dropTrailing c t).length ≤ t.length := by
  unfold dropTrailing
  rw [List.length_reverse, ← List.length_reverse (as := t)]
  exact (List.dropWhile_sublist _).length_le

theorem dropTrailing_replicate (c : JChar) (t : JStr) (k : Nat) :
    dropTrailing c (t ++ List.replicate k c) = dropTrailing c t := by
  induction k with
  | zero => simp
  | succ k ih => rw [List.replicate_succ', ← List.append_assoc, dropTrailing_snoc_same, ih]

theorem hexFrac_ok {f : Nat} (hf : f < 2 ^ 52) :
    (∀ c ∈ hexFrac f, IsDigitIn 16 c) ∧ hexFrac f ≠ [] ∧
      (hexFrac f = js! "0" ∨ (hexFrac f).getLast? ≠ some 48) ∧ (hexFrac f).length ≤ 13 ∧
      valueIn 16 (hexFrac f) * 16 ^ (13 - (hexFrac f).length) = f := by
  unfold hexFrac
  by_cases h : f = 0
  · subst h; decide
  rw [if_neg h]
  obtain ⟨h1, h2, h3⟩ := hex13_ok hf
  obtain ⟨k, k1, k2⟩ := dropTrailing_eq 48 (hex13 f)
  rw [dropTrailingZeros_eq]
  generalize dropTrailing 48 (hex13 f) = t at *
  rw [k1] at h1 h2 h3
  rw [valueIn_append, valueIn_replicate_zero, List.length_replicate, Nat.add_zero] at h3
  simp only [List.length_append, List.length_replicate] at h1
  refine ⟨fun c hc => h2 c (by simp [hc]), ?_, .inr k2, by omega, ?_⟩
  · rintro rfl; simp [valueIn] at h3; omega
  · rw [show 13 - t.length = k by omega]; exact h3

theorem hexFrac_length {f j : Nat} (hf : f < 2 ^ 52) (hj : j ≤ 12) (hd : 16 ^ j ∣ f) :
    (hexFrac f).length ≤ 13 - j := by
  unfold hexFrac
  by_cases h : f = 0
  · subst h; simp; omega
  rw [if_neg h, dropTrailingZeros_eq]
  obtain ⟨h1, h2, h3⟩ := hex13_ok hf
  have hs := List.take_append_drop (13 - j) (hex13 f)
  have hb : ((hex13 f).drop (13 - j)).length = j := by rw [List.length_drop]; omega
  have ha : ((hex13 f).take (13 - j)).length = 13 - j := by rw [List.length_take]; omega
  generalize (hex13 f).take (13 - j) = a at *
  generalize (hex13 f).drop (13 - j) = b at *
  rw [← hs] at h2 h3 ⊢
  have hbd : ∀ c ∈ b, IsDigitIn 16 c := fun c hc => h2 c (by simp [hc])
  have hv := valueIn_lt (b := 16) (by norm_num) b (fun c hc => (hbd c hc).2)
  rw [valueIn_append, hb] at h3
  rw [hb] at hv
  have h0 : valueIn 16 b = 0 := by
    have : 16 ^ j ∣ valueIn 16 b := by
      rw [← h3] at hd
      exact (Nat.dvd_add_right (Dvd.intro_left _ rfl)).1 hd
    exact Nat.eq_zero_of_dvd_of_lt this hv
  have hz : b = List.replicate j 48 := by
    refine valueIn_inj_length (b := 16) (by norm_num) hbd ?_ (by simp [hb]) ?_
    · intro c hc; rw [(List.mem_replicate.1 hc).2]; unfold IsDigitIn; decide
    · rw [h0, valueIn_replicate_zero]
  rw [hz, dropTrailing_replicate]
  exact le_trans (dropTrailing_length_le _ _) ha.le

/-- The fraction denoted by the digits. -/
theorem hexFrac_value {f : Nat} (hf : f < 2 ^ 52) :
    (valueIn 16 (hexFrac f) : ℚ) / 16 ^ (hexFrac f).length = f / 2 ^ 52 := by
  obtain ⟨-, -, -, h1, h2⟩ := hexFrac_ok hf
  have h3 : (valueIn 16 (hexFrac f) : ℚ) * 16 ^ (13 - (hexFrac f).length) = f := by exact_mod_cast h2
  rw [← h3, div_eq_div_iff (by positivity) (by positivity), mul_assoc, ← pow_add,
    show 13 - (hexFrac f).length + (hexFrac f).length = 13 by omega]
  norm_num

/-! ### The text of `Double.toHexString` -/

def hexLead (bits : BitVec 64) : Nat := if expBits bits = 0 then 0 else 1
def hexExp (bits : BitVec 64) : Int :=
  if magnitude bits = 0 then 0 else if expBits bits = 0 then -1022 else (expBits bits : Int) - 1023

/-- The mantissa text. -/
def hexMant (bits : BitVec 64) : JStr := (48 + hexLead bits) :: 46 :: hexFrac (fracBits bits)

theorem toHexString_eq (bits : BitVec 64) :
    toHexString bits = (if signBit bits then js! "-" else []) ++ js! "0x" ++
      (hexMant bits ++ 112 :: intToString (hexExp bits)) := by
  unfold toHexString hexMant hexLead hexExp hexFrac
  congr 1
  by_cases hz : isZero bits = true
  · rw [if_pos hz, if_pos ((magnitude_zero_iff bits).2 hz)]
    simp only [isZero, Bool.and_eq_true, decide_eq_true_eq] at hz
    rw [← expField_eq, ← fracField_eq, hz.1, hz.2]
    decide
  · rw [if_neg hz, if_neg (fun h => hz ((magnitude_zero_iff bits).1 h)), expField_eq, fracField_eq]
    unfold getExponent
    rw [expField_eq]
    by_cases h : expBits bits = 0
    · simp [h]
    · simp [h]

theorem hexValue_exact (bits : BitVec 64) :
    hexValue (hexLead bits) (hexFrac (fracBits bits)) (hexExp bits) = magnitude bits := by
  have hf : fracBits bits < 2 ^ 52 := Nat.mod_lt _ (by positivity)
  unfold hexValue
  rw [hexFrac_value hf]
  unfold hexLead hexExp
  by_cases hm : magnitude bits = 0
  · rw [if_pos hm, hm]
    have h := (magnitude_zero_iff bits).1 hm
    simp only [isZero, Bool.and_eq_true, decide_eq_true_eq] at h
    rw [expField_eq, fracField_eq] at h
    simp [h.1, h.2]
  · rw [if_neg hm]
    unfold magnitude doubleC doubleQ
    by_cases h : expBits bits = 0
    · simp only [h, if_true]
      rw [show (-1074 : ℤ) = -1022 + -52 by norm_num, zpow_add₀ (by norm_num)]
      generalize (2 : ℚ) ^ (-1022 : ℤ) = z
      rw [show (2 : ℚ) ^ (-52 : ℤ) = 1 / 2 ^ 52 by norm_num]
      push_cast; ring
    · simp only [h, if_false]
      rw [show (expBits bits : ℤ) - 1075 = (expBits bits - 1023) + -52 by ring, zpow_add₀ (by norm_num)]
      generalize (2 : ℚ) ^ ((expBits bits : ℤ) - 1023) = z
      rw [show (2 : ℚ) ^ (-52 : ℤ) = 1 / 2 ^ 52 by norm_num]
      push_cast; ring

/-! ### Cutting the text at the `p` -/

theorem indexOfFrom_append {a b : JStr} {c : JChar} (h : c ∉ a) :
    indexOfFrom (a ++ c :: b) c 0 = a.length := by
  unfold indexOfFrom
  rw [List.drop_zero]
  have : (a ++ c :: b).findIdx? (· == c) = some a.length := by
    rw [List.findIdx?_append]
    have h1 : a.findIdx? (· == c) = none := by
      rw [List.findIdx?_eq_none_iff]; intro x hx; simp; rintro rfl; exact h hx
    simp [h1, List.findIdx?_cons]
  rw [this]; simp

theorem cut_ok (neg : Bool) {M X : JStr} (h : 112 ∉ M) :
    let s := (if neg then js! "-" else []) ++ js! "0x" ++ (M ++ 112 :: X)
    ∃ m, DoubleWrapper.wrapRange s (if DoubleWrapper.startsWithMinus s then 3 else 2)
        (indexOfFrom s (ch! 'p') 0) = .ok m ∧ m.text = M ∧ 0 ≤ indexOfFrom s (ch! 'p') 0 ∧
      s.drop (indexOfFrom s (ch! 'p') 0 + 1).toNat = X := by
  intro s
  obtain ⟨P, hP, hn, hl⟩ : ∃ P : JStr, s = P ++ (M ++ 112 :: X) ∧ 112 ∉ P ∧
      (if DoubleWrapper.startsWithMinus s then (3 : Int) else 2) = P.length := by
    refine ⟨(if neg then js! "-" else []) ++ js! "0x", rfl, ?_, ?_⟩
    · cases neg <;> decide
    · cases neg <;> rfl
  have hi : indexOfFrom s (ch! 'p') 0 = (P.length + M.length : Nat) := by
    rw [hP, ← List.append_assoc, indexOfFrom_append (by simp [h, hn])]; simp
  rw [hi, hl]
  obtain ⟨a, h1, h2, h3⟩ := Atomic.wrapRange_ok (s := s) (i := P.length) (j := (P.length + M.length : Nat))
    (by rw [hP]; simp; omega)
  refine ⟨.atom a, ?_, ?_, by omega, ?_⟩
  · unfold DoubleWrapper.wrapRange; rw [h1]; rfl
  · show a.text = M
    rw [h3, Spec.sub, hP, Int.toNat_natCast, Int.toNat_natCast, Nat.add_sub_cancel_left, List.drop_left,
      List.take_left]
  · rw [hP, show ((P.length + M.length : Nat) + 1 : Int).toNat = P.length + M.length + 1 by omega]
    rw [show P ++ (M ++ 112 :: X) = (P ++ M ++ [112]) ++ X by simp]
    exact List.drop_left' (by simp [Nat.add_assoc])

theorem natToString_head (n : Nat) : (natToString n).head? ≠ some 45 := by
  have h := (toRadix_isNumeral (b := 10) (by norm_num) (by norm_num) n).2
  unfold natToString
  cases ht : toRadix 10 n with
  | nil => simp
  | cons c t =>
    have := h c (by rw [ht]; simp)
    simp only [List.head?_cons, ne_eq, Option.some.injEq]
    rintro rfl
    revert this; unfold IsDigitIn; decide

theorem addPlus_text (x : Int) :
    (DoubleWrapper.addPlus (intToString x)).text = (if x < 0 then ch! '-' else ch! '+') :: natToString x.natAbs := by
  unfold DoubleWrapper.addPlus DoubleWrapper.startsWithMinus intToString
  by_cases h : x < 0
  · simp [h, Seq.wrap_text]
  · have := natToString_head x.natAbs
    simp [h, Seq.wrap_text, this]

theorem parseExponent_intToString (x : Int) : DoubleWrapper.parseExponent (intToString x) = x := by
  have hfold : ∀ (s : JStr) (n : Nat), (∀ c ∈ s, IsDigitIn 10 c) →
      s.foldl (fun n c => n * 10 + (c - 48)) n = n * 10 ^ s.length + valueIn 10 s := by
    intro s
    induction s with
    | nil => intro n _; simp [valueIn]
    | cons c t ih =>
      intro n h
      rw [List.foldl_cons, ih _ (fun x hx => h x (List.mem_cons_of_mem _ hx))]
      have hc := h c (by simp)
      have : digitVal c = c - 48 := by
        unfold IsDigitIn digitVal at hc
        unfold digitVal
        split_ifs at hc ⊢ <;> omega
      simp only [valueIn, List.length_cons, this]
      ring
  have hn : ∀ n, (natToString n).foldl (fun n c => n * 10 + (c - 48)) 0 = n := by
    intro n
    rw [natToString, hfold _ _ (toRadix_isNumeral (by norm_num) (by norm_num) n).2]
    simp [valueIn_toRadix]
  unfold intToString
  by_cases h : x < 0
  · rw [if_pos h]
    simp only [DoubleWrapper.parseExponent, hn]; omega
  · rw [if_neg h]
    have hh := natToString_head x.natAbs
    have : DoubleWrapper.parseExponent (natToString x.natAbs) =
        (((natToString x.natAbs).foldl (fun n c => n * 10 + (c - 48)) 0 : Nat) : Int) := by
      cases ht : natToString x.natAbs with
      | nil => rfl
      | cons c t =>
        rw [ht] at hh
        unfold DoubleWrapper.parseExponent
        split
        · rename_i heq; cases heq; simp at hh
        · rfl
    rw [this, hn]; omega

theorem hexMant_no_p (bits : BitVec 64) : 112 ∉ hexMant bits := by
  have hf : fracBits bits < 2 ^ 52 := Nat.mod_lt _ (by positivity)
  unfold hexMant hexLead
  simp only [List.mem_cons, not_or]
  refine ⟨by split_ifs <;> omega, by omega, fun h => ?_⟩
  have := (hexFrac_ok hf).1 _ h
  revert this; unfold IsDigitIn; decide

theorem simpleHexLayout_ok (bits : BitVec 64) :
    ∃ m ex, DoubleWrapper.simpleHexLayout bits = .ok ⟨m, some ex⟩ ∧ m.text = hexMant bits ∧
      ex.text = (if hexExp bits < 0 then ch! '-' else ch! '+') :: natToString (hexExp bits).natAbs := by
  obtain ⟨m, h1, h2, h3, h4⟩ := cut_ok (signBit bits) (M := hexMant bits) (X := intToString (hexExp bits))
    (hexMant_no_p bits)
  rw [← toHexString_eq] at h1 h3 h4
  refine ⟨m, DoubleWrapper.addPlus (intToString (hexExp bits)), ?_, h2, addPlus_text _⟩
  unfold DoubleWrapper.simpleHexLayout
  simp only [h1, bind_ok, h4, pure_eq_ok]

end FastPrintf
