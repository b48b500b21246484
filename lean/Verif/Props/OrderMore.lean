/-
C91: numbers keep their order when printed, whatever their types, under all the floating-point conversions.
-/
import Verif.Spec.OrderMore
import Verif.Props.Order
import Verif.Props.GiveBack
import Verif.Props.EqualNumbers
import Verif.Proofs.Determined

namespace FastPrintf
open Spec DefaultAppender

/-! ### What the bodies denote -/

/-- A number without its sign, and its value. -/
def Denotes (s : JStr) (v : ℚ) : Prop := ∃ ip fp alt tail, NumText s ip fp alt tail ∧ readDecimal s = v

theorem Denotes.java {s : JStr} {v : ℚ} (h : Denotes s v) (fl : Flags) (left zero neg : Bool) (w : Nat) :
    javaNumber (Spec.field left zero w (signText fl neg) s) = some (neg, v) := by
  obtain ⟨ip, fp, alt, tail, h1, rfl⟩ := h
  exact h1.java_field fl left zero neg w

theorem Denotes.java_pad {s : JStr} {v : ℚ} (h : Denotes s v) (fl : Flags) (left zero neg : Bool) (k : Nat) :
    javaNumber (padWith left zero k (signText fl neg) s) = some (neg, v) := by
  rw [show padWith left zero k (signText fl neg) s =
    Spec.field left zero ((signText fl neg).length + s.length + k) (signText fl neg) s by
      unfold padWith Spec.field
      simp only [show (signText fl neg).length + s.length + k - ((signText fl neg).length + s.length) = k by omega]]
  exact h.java fl left zero neg _

theorem fixed_denotes {M p : Nat} {alt : Bool} {s : JStr} (h : FixedText M p alt s) :
    Denotes s (M * 10 ^ (-(p : Int))) := by
  obtain ⟨ip, fp, hn, hl, hv⟩ := fixedText_written h (tail := []) (.inl rfl)
  rw [List.append_nil] at hn
  exact ⟨ip, fp, alt, [], hn, by rw [hn.read, hv, hl]; simp [readExponent]⟩

theorem fixedExp_denotes {M p : Nat} {alt : Bool} {s ex : JStr} (h : FixedText M p alt s) (hx : IsExponent ex) :
    Denotes (s ++ ch! 'e' :: ex) (M * 10 ^ (readExponent ex - p)) := by
  obtain ⟨ip, fp, hn, hl, hv⟩ := fixedText_written h (tail := ch! 'e' :: ex) (.inr ⟨_, rfl, hx⟩)
  exact ⟨ip, fp, alt, _, hn, by rw [hn.read, hv, hl]; simp⟩

theorem minimal_denotes {v : ℚ} {s : JStr} (h : MinimalText v s) : Denotes s v := by
  obtain ⟨ip, fp, hn, hv⟩ := minimalText_written h (tail := []) (.inl rfl)
  rw [List.append_nil] at hn
  refine ⟨ip, fp, false, [], hn, ?_⟩
  have h10 : (10 : ℚ) ≠ 0 := by norm_num
  rw [hn.read, hv, mul_assoc, ← zpow_natCast (10 : ℚ) fp.length, ← zpow_add₀ h10]
  simp [readExponent]

theorem minimalExp_denotes {v : ℚ} {s ex : JStr} (h : MinimalText v s) (hx : IsExponent ex) :
    Denotes (s ++ ch! 'e' :: ex) (v * 10 ^ readExponent ex) := by
  obtain ⟨ip, fp, hn, hv⟩ := minimalText_written h (tail := ch! 'e' :: ex) (.inr ⟨_, rfl, hx⟩)
  refine ⟨ip, fp, false, _, hn, ?_⟩
  have h10 : (10 : ℚ) ≠ 0 := by norm_num
  rw [hn.read, hv, mul_assoc, ← zpow_natCast (10 : ℚ) fp.length, ← zpow_add₀ h10]
  simp

/-- The exponent style of `%#g`. -/
theorem digits_denotes {q : ℚ} {P n M m' : Nat} {x : Int} (hs : Significant q P M x) (hP : 1 ≤ P)
    (hM : M = m' * 10 ^ (P - min P n)) {alt : Bool} {ms xs : JStr} (hm : FixedText m' (min P n - 1) alt ms)
    (hx : ExponentText x xs) : Denotes (ms ++ ch! 'e' :: xs) (M * 10 ^ (x - (P - 1))) := by
  obtain ⟨hx1, hx2⟩ := exponent_read hx
  have := fixedExp_denotes hm hx2
  rw [hx1] at this
  convert this using 1
  have h10 : (10 : ℚ) ≠ 0 := by norm_num
  have hn1 : 1 ≤ n := by
    by_contra hn0
    obtain ⟨s1, s2, -⟩ := hs
    rw [hM, show P - min P n = P by omega] at s1 s2
    have : 0 < 10 ^ (P - 1) := by positivity
    have : m' ≠ 0 := by rintro rfl; omega
    nlinarith [Nat.one_le_iff_ne_zero.2 this]
  rw [hM]
  push_cast
  rw [mul_assoc, ← zpow_natCast (10 : ℚ) (P - min P n), ← zpow_add₀ h10]
  congr 2
  omega

theorem general_denotes {q : ℚ} {P n M : Nat} {x : Int} {alt : Bool} {body : JStr} (hs : Significant q P M x)
    (hP : 1 ≤ P) (h : GeneralText P n alt M x body) : Denotes body (M * 10 ^ (x - (P - 1))) := by
  unfold GeneralText at h
  by_cases hx : -4 ≤ x ∧ x < (P : Int)
  · rw [if_pos hx] at h
    split_ifs at h
    · convert fixed_denotes h using 3
      omega
    · exact minimal_denotes h
  · rw [if_neg hx] at h
    obtain ⟨ms, xs, rfl, hxs, hm⟩ := h
    split_ifs at hm
    · obtain ⟨m', hM, hm⟩ := hm
      exact digits_denotes hs hP hM hm hxs
    · obtain ⟨hx1, hx2⟩ := exponent_read hxs
      convert minimalExp_denotes hm hx2 using 1
      rw [hx1, mul_assoc, ← zpow_add₀ (by norm_num : (10 : ℚ) ≠ 0)]
      congr 2
      ring

theorem bigGeneral_denotes {q : ℚ} {P n M : Nat} {x0 x : Int} {alt : Bool} {body : JStr} (hs : Significant q P M x)
    (hP : 1 ≤ P) (h : BigGeneralText P n alt x0 M x body) : Denotes body (M * 10 ^ (x - (P - 1))) := by
  unfold BigGeneralText at h
  by_cases hx : -4 ≤ x0 ∧ x0 < (P : Int)
  · rw [if_pos hx] at h
    by_cases ha : alt
    · rw [if_pos ha] at h
      obtain ⟨m', hm, hf⟩ := h
      rw [← hm]
      exact fixed_denotes hf
    · rw [if_neg ha] at h
      exact minimal_denotes h
  · rw [if_neg hx] at h
    obtain ⟨ms, xs, rfl, hxs, hm⟩ := h
    split_ifs at hm
    · obtain ⟨m', hM, hm⟩ := hm
      exact digits_denotes hs hP hM hm hxs
    · obtain ⟨hx1, hx2⟩ := exponent_read hxs
      convert minimalExp_denotes hm hx2 using 1
      rw [hx1, mul_assoc, ← zpow_add₀ (by norm_num : (10 : ℚ) ≠ 0)]
      congr 2
      ring

/-! ### Roundings -/

/-- A rounding of magnitudes that keeps the order. -/
structure Orderly (R : ℚ → ℚ → Prop) : Prop where
  mono : ∀ {a b x y}, 0 ≤ a → a ≤ b → R a x → R b y → x ≤ y
  nonneg : ∀ {a x}, R a x → 0 ≤ x
  zero : ∀ {x}, R 0 x → x = 0

/-- To `p` places. -/
def ToPlaces (p : Nat) (a x : ℚ) : Prop := x = halfUp a p * 10 ^ (-(p : Int))

/-- To `P` significant digits. -/
def ToDigits (P : Nat) (a x : ℚ) : Prop :=
  a = 0 ∧ x = 0 ∨ ∃ M k, Significant a P M k ∧ x = M * 10 ^ (k - ((P : Int) - 1))

/-- To `q` hex digits behind the point, if there is a `q`. -/
def ToHexDigits (q : Option Nat) (a x : ℚ) : Prop :=
  match q with
  | none => x = a
  | some q => a = 0 ∧ x = 0 ∨ HexRounded a q x

theorem toPlaces_orderly (p : Nat) : Orderly (ToPlaces p) where
  mono := by
    rintro a b x y - h rfl rfl
    have h2 : (halfUp a p : ℚ) ≤ halfUp b p := by exact_mod_cast halfUp_mono h p
    exact mul_le_mul_of_nonneg_right h2 (by positivity)
  nonneg := by rintro a x rfl; positivity
  zero := by
    rintro x rfl
    have : halfUp 0 p = 0 := by
      unfold halfUp
      rw [zero_mul, Nat.floor_eq_zero]; norm_num
    rw [this]; simp

theorem significant_pos {a : ℚ} {P M : Nat} {k : Int} (h : Significant a P M k) : 0 < a := by
  obtain ⟨-, -, x0, l, -⟩ := h
  exact lt_of_lt_of_le (by positivity) l

theorem toDigits_orderly {P : Nat} (hP : 1 ≤ P) : Orderly (ToDigits P) where
  mono := by
    rintro a b x y h0 h (⟨rfl, rfl⟩ | ⟨M, k, h1, rfl⟩) h2
    · rcases h2 with ⟨-, rfl⟩ | ⟨M, k, -, rfl⟩
      · exact le_rfl
      · positivity
    · have := significant_pos h1
      rcases h2 with ⟨rfl, rfl⟩ | ⟨M', k', h2, rfl⟩
      · linarith
      · exact h1.mono hP h2 h
  nonneg := by
    rintro a x (⟨-, rfl⟩ | ⟨M, k, -, rfl⟩)
    · exact le_rfl
    · positivity
  zero := by
    rintro x (⟨-, rfl⟩ | ⟨M, k, h, -⟩)
    · rfl
    · exact absurd (significant_pos h) (lt_irrefl _)

theorem hexRounded_mono {a b x y : ℚ} {q : Nat} (h : a ≤ b) (h1 : HexRounded a q x) (h2 : HexRounded b q y) :
    x ≤ y := by
  obtain ⟨E, k, l, u, rfl, er, ev⟩ := id h1
  obtain ⟨E', k', l', u', rfl, er', ev'⟩ := id h2
  have p : (0 : ℚ) < 2 ^ (E - 4 * q) := by positivity
  have p' : (0 : ℚ) < 2 ^ (E' - 4 * q) := by positivity
  obtain ⟨e1, e2⟩ := abs_le.1 er
  obtain ⟨e1', e2'⟩ := abs_le.1 er'
  have h2' : (2 : ℚ) ≠ 0 := by norm_num
  have hE : E ≤ E' := by
    by_contra hn
    have : (2 : ℚ) ^ (E' + 1) ≤ 2 ^ E := zpow_le_zpow_right₀ (by norm_num) (by omega)
    linarith
  rcases hE.lt_or_eq with g | rfl
  · -- a power of two lies between them
    have f : ∀ i : Int, (2 : ℚ) ^ i = 2 ^ (4 * q) * 2 ^ (i - 4 * q) := by
      intro i
      rw [← zpow_natCast (2 : ℚ) (4 * q), ← zpow_add₀ h2']
      congr 1; push_cast; ring
    have f' : (2 : ℚ) ^ (E + 1) = 2 ^ (4 * q + 1) * 2 ^ (E - 4 * q) := by
      rw [zpow_add₀ h2', f E, pow_succ]; ring
    have a1 : k ≤ 2 ^ (4 * q + 1) := by
      by_contra hn
      have : ((2 ^ (4 * q + 1) + 1 : Nat) : ℚ) ≤ k := by exact_mod_cast (by omega : 2 ^ (4 * q + 1) + 1 ≤ k)
      push_cast at this
      have := mul_le_mul_of_nonneg_right this p.le
      rw [add_mul, ← f'] at this
      linarith
    have a2 : 2 ^ (4 * q) ≤ k' := by
      by_contra hn
      have : (k' : ℚ) ≤ ((2 ^ (4 * q) : Nat) : ℚ) - 1 := by
        have : ((k' + 1 : Nat) : ℚ) ≤ ((2 ^ (4 * q) : Nat) : ℚ) := by exact_mod_cast (by omega : k' + 1 ≤ 2 ^ (4 * q))
        push_cast at this ⊢; linarith
      push_cast at this
      have := mul_le_mul_of_nonneg_right this p'.le
      rw [sub_mul, ← f] at this
      linarith
    calc (k : ℚ) * 2 ^ (E - 4 * q) ≤ 2 ^ (4 * q + 1) * 2 ^ (E - 4 * q) :=
          mul_le_mul_of_nonneg_right (by exact_mod_cast a1) p.le
      _ = 2 ^ (E + 1) := f'.symm
      _ ≤ 2 ^ E' := zpow_le_zpow_right₀ (by norm_num) (by omega)
      _ = 2 ^ (4 * q) * 2 ^ (E' - 4 * q) := f E'
      _ ≤ _ := mul_le_mul_of_nonneg_right (by exact_mod_cast a2) p'.le
  · by_contra hn
    push Not at hn
    have hk : k' + 1 ≤ k := by
      have := lt_of_mul_lt_mul_right hn p.le
      exact_mod_cast this
    have hk' : (k' : ℚ) + 1 ≤ k := by exact_mod_cast hk
    have := mul_le_mul_of_nonneg_right hk' p.le
    rw [add_mul] at this
    have hab : a = b := by linarith
    subst hab
    exact hn.ne (C27_rounded_determined h2 h1)

theorem hexRounded_pos {a x : ℚ} {q : Nat} (h : HexRounded a q x) : 0 < a ∧ 0 ≤ x := by
  obtain ⟨E, k, l, -, rfl, -⟩ := h
  exact ⟨lt_of_lt_of_le (by positivity) l, by positivity⟩

theorem toHexDigits_orderly (q : Option Nat) : Orderly (fun a x => 0 ≤ a ∧ ToHexDigits q a x) := by
  cases q with
  | none =>
    exact ⟨by rintro a b x y - h ⟨-, rfl⟩ ⟨-, rfl⟩; exact h, by rintro a x ⟨h, rfl⟩; exact h,
      by rintro x ⟨-, h⟩; exact h⟩
  | some q =>
    refine ⟨?_, ?_, ?_⟩
    · rintro a b x y h0 h ⟨-, ⟨rfl, rfl⟩ | h1⟩ ⟨-, h2⟩
      · rcases h2 with ⟨-, rfl⟩ | h2
        · exact le_rfl
        · exact (hexRounded_pos h2).2
      · rcases h2 with ⟨rfl, rfl⟩ | h2
        · exact absurd (hexRounded_pos h1).1 (by linarith)
        · exact hexRounded_mono h h1 h2
    · rintro a x ⟨-, ⟨-, rfl⟩ | h⟩
      · exact le_rfl
      · exact (hexRounded_pos h).2
    · rintro x ⟨-, ⟨-, rfl⟩ | h⟩
      · rfl
      · exact absurd (hexRounded_pos h).1 (lt_irrefl _)

/-- What is read from the text of `v`: the sign, which for zero may be either, and the rounded magnitude. -/
def ReadsOff (R : ℚ → ℚ → Prop) (v : ℚ) (s : JStr) : Prop :=
  ∃ n x, javaNumber s = some (n, x) ∧ (v < 0 → n = true) ∧ (0 < v → n = false) ∧ R |v| x

theorem ReadsOff.notGreater {R : ℚ → ℚ → Prop} (hR : Orderly R) {v v' : ℚ} (hv : v ≤ v') {s s' : JStr}
    (h : ReadsOff R v s) (h' : ReadsOff R v' s') : NotGreater s s' := by
  obtain ⟨n, x, h1, h2, h3, h4⟩ := h
  obtain ⟨n', x', h1', h2', h3', h4'⟩ := h'
  refine ⟨n, x, n', x', h1, h1', ?_⟩
  have x0 := hR.nonneg h4
  have x0' := hR.nonneg h4'
  have lo : v ≤ 0 → signed n x ≤ 0 := by
    intro g
    rcases g.lt_or_eq with g | rfl
    · rw [h2 g]; simp [signed, x0]
    · rw [abs_zero] at h4; rw [hR.zero h4]; simp [signed]
  have hi : 0 ≤ v' → 0 ≤ signed n' x' := by
    intro g
    rcases g.lt_or_eq with g | rfl
    · rw [h3' g]; simp [signed, x0']
    · rw [abs_zero] at h4'; rw [hR.zero h4']; simp [signed]
  rcases le_or_gt v 0 with g | g
  · rcases le_or_gt 0 v' with g' | g'
    · exact (lo g).trans (hi g')
    · rw [h2 (lt_of_le_of_lt hv g'), h2' g']
      have := hR.mono (abs_nonneg v') (by rw [abs_of_neg g', abs_of_nonpos g]; linarith) h4' h4
      simp only [signed, if_true]
      linarith
  · rw [h3 g, h3' (lt_of_lt_of_le g hv)]
    have := hR.mono (abs_nonneg v) (by rw [abs_of_pos g, abs_of_pos (lt_of_lt_of_le g hv)]; exact hv) h4 h4'
    simpa [signed] using this

theorem ReadsOff.upper {R : ℚ → ℚ → Prop} {v : ℚ} {s : JStr} (h : ReadsOff R v s) :
    ReadsOff R v (s.map Spec.upper) := by
  obtain ⟨n, x, h1, h2⟩ := h
  exact ⟨n, x, by rw [javaNumber_case (upper_lower s), h1], h2⟩

/-! ### What is read from printed numbers -/

/-- How a decimal conversion rounds. -/
def Rounding (d : Directive) : ℚ → ℚ → Prop :=
  if d.conv = ch! 'f' ∨ d.conv = ch! 'F' then ToPlaces (d.prec.precision.getD 6)
  else if d.conv = ch! 'e' ∨ d.conv = ch! 'E' then ToDigits (d.prec.precision.getD 6 + 1)
  else ToDigits (max 1 (d.prec.precision.getD 6))

theorem rounding_orderly (d : Directive) : Orderly (Rounding d) := by
  unfold Rounding
  split_ifs
  · exact toPlaces_orderly _
  · exact toDigits_orderly (by omega)
  · exact toDigits_orderly (le_max_left _ _)

theorem signed_neg {n : Bool} {q : ℚ} (h0 : 0 ≤ q) :
    (signed n q < 0 → n = true) ∧ (0 < signed n q → n = false) ∧ |signed n q| = q := by
  unfold signed
  cases n
  · simp [h0, abs_of_nonneg h0]
  · simp [h0, abs_of_nonneg h0]

theorem reads_double {dates : DateSyntax} (env : DateEnv) (jdk : JdkEnv) {d : Directive} (h : d.Ok dates) (hp : d.Plain)
    (hc : d.conv = ch! 'f' ∨ d.conv = ch! 'e' ∨ d.conv = ch! 'g') {bits : BitVec 64} (hf : finite bits) {e : Entry}
    (he : IsDouble e bits) {q : ℚ} (hq : DecimalOf bits q) (rest : List Traits) :
    ∃ s, printf dates env d.text (e.toTraits jdk :: rest) = .ok s ∧
      ReadsOff (Rounding d) (signed (negative bits) q) s := by
  obtain ⟨s1, s2, s3⟩ := signed_neg (n := negative bits) (decimal_nonneg hq)
  have uq : ∀ {q' : ℚ}, DecimalOf bits q' → q' = q := by
    intro q' hq'
    rcases hq with ⟨g, rfl⟩ | ⟨g, hq⟩ <;> rcases hq' with ⟨g', rfl⟩ | ⟨g', hq'⟩
    · rfl
    · exact absurd g g'
    · exact absurd g' g
    · exact C26_unique hf g hq' hq
  rcases hc with hc | hc | hc
  · obtain ⟨q', body, h1, hq', hm⟩ := C23_f dates env jdk d h hp hc bits hf e he rest
    refine ⟨_, h1, _, _, (fixed_denotes hm).java _ _ _ _ _, s1, s2, ?_⟩
    rw [s3, uq hq']
    unfold Rounding
    rw [if_pos (.inl hc)]
    rfl
  · obtain ⟨m, ex, h1, h2⟩ := C24_e dates env jdk d h hp hc bits hf e he rest
    have hR : Rounding d = ToDigits (d.prec.precision.getD 6 + 1) := by
      unfold Rounding
      rw [if_neg (by rw [hc]; decide), if_pos (.inl hc)]
    rcases h2 with ⟨h0, hm, hex⟩ | ⟨q', M, x, h0, hq', hsig, hm, hex⟩
    · refine ⟨_, h1, _, _, (fixedExp_denotes hm (by rw [hex]; decide)).java _ _ _ _ _, s1, s2, ?_⟩
      rw [s3, hR]
      exact .inl ⟨(uq (.inl ⟨h0, rfl⟩)).symm, by simp⟩
    · obtain ⟨hx1, hx2⟩ := exponent_read hex
      refine ⟨_, h1, _, _, (fixedExp_denotes hm hx2).java _ _ _ _ _, s1, s2, ?_⟩
      rw [s3, hR, ← uq (.inr ⟨h0, hq'⟩)]
      refine .inr ⟨M, x, hsig, ?_⟩
      rw [hx1]
      push_cast
      congr 2
      ring
  · obtain ⟨body, h1, h2⟩ := C25_g dates env jdk d h hp hc bits hf e he rest
    have hP : 1 ≤ max 1 (d.prec.precision.getD 6) := le_max_left _ _
    have hR : Rounding d = ToDigits (max 1 (d.prec.precision.getD 6)) := by
      unfold Rounding
      rw [if_neg (by rw [hc]; decide), if_neg (by rw [hc]; decide)]
    rcases h2 with ⟨h0, hm⟩ | ⟨q', M, x, h0, hq', hsig, _, n, -, -, hm⟩
    · have hD : Denotes body 0 := by
        split_ifs at hm
        · simpa using fixed_denotes hm
        · have hn : NumText body (js! "0") [] false [] :=
            ⟨by rw [hm]; decide, by decide, by decide, by decide, .inl rfl⟩
          exact ⟨_, _, _, _, hn, by rw [hn.read]; simp [valueIn, digitVal]⟩
      refine ⟨_, h1, _, _, hD.java _ _ _ _ _, s1, s2, ?_⟩
      rw [s3, hR]
      exact .inl ⟨(uq (.inl ⟨h0, rfl⟩)).symm, rfl⟩
    · refine ⟨_, h1, _, _, (general_denotes hsig hP hm).java _ _ _ _ _, s1, s2, ?_⟩
      rw [s3, hR, ← uq (.inr ⟨h0, hq'⟩)]
      exact .inr ⟨M, x, hsig, rfl⟩

theorem bigExponent_read {k : Nat} {x : Int} {s : JStr} (h : BigExponentText k x s) :
    readExponent s = x ∧ IsExponent s := by
  unfold BigExponentText at h
  split_ifs at h with g
  · rw [h, g.2]; exact ⟨by decide, by decide⟩
  · exact exponent_read h

theorem reads_big {dates : DateSyntax} (env : DateEnv) (jdk : JdkEnv) {d : Directive} (h : d.Ok dates) (hp : d.Plain)
    (hc : d.conv = ch! 'f' ∨ d.conv = ch! 'e' ∨ d.conv = ch! 'g') {e : Entry} {u scale : Int} (he : IsBig e u scale)
    {n : Nat} (hn : DigitCount u.natAbs n) (hs : ScaleOk n scale) (rest : List Traits) :
    ∃ s, printf dates env d.text (e.toTraits jdk :: rest) = .ok s ∧
      ReadsOff (Rounding d) (u * 10 ^ (-scale)) s := by
  have hpow : (0 : ℚ) < 10 ^ (-scale) := by positivity
  have s1 : (u : ℚ) * 10 ^ (-scale) < 0 → decide (u < 0) = true := by
    intro g
    rw [decide_eq_true_eq]
    by_contra hn
    have : (0 : ℚ) ≤ u := by exact_mod_cast not_lt.1 hn
    nlinarith
  have s2 : 0 < (u : ℚ) * 10 ^ (-scale) → decide (u < 0) = false := by
    intro g
    rw [decide_eq_false_iff_not]
    intro hn
    have : (u : ℚ) < 0 := by exact_mod_cast hn
    nlinarith
  have s3 : |(u : ℚ) * 10 ^ (-scale)| = bigValue u.natAbs scale := by
    rw [abs_mul, abs_of_pos hpow]
    unfold bigValue
    congr 1
    rw [← Int.cast_abs, Int.abs_eq_natAbs]; rfl
  have z0 : u = 0 → n = 1 := by
    rintro rfl
    exact hn.unique ⟨js! "0", by unfold Shortest IsNumeral NoExtraZero; decide, rfl⟩
  rcases hc with hc | hc | hc
  · have hR : Rounding d = ToPlaces (d.prec.precision.getD 6) := by
      unfold Rounding
      rw [if_pos (.inl hc)]
    by_cases hz : u ≠ 0 ∨ 0 ≤ scale
    · obtain ⟨body, h1, h2⟩ := C28_f dates env jdk d h hp hc u scale e he n hn hs hz rest
      refine ⟨_, h1, _, _, (fixed_denotes h2).java _ _ _ _ _, s1, s2, ?_⟩
      rw [s3, hR]
      rfl
    · push Not at hz
      obtain ⟨hu, hneg⟩ := hz
      have h1 := C28_zero_negative_scale dates env jdk d h hp hc scale e (by rwa [hu] at he) (by rwa [z0 hu] at hs) hneg rest
      refine ⟨_, h1, false, 0, ?_, by rw [hu]; simp, fun _ => rfl, ?_⟩
      · have hN : NumText (List.replicate (1 + (-scale).toNat) 48 ++
            fraction (flagSet d.flags).alternate (List.replicate (d.prec.precision.getD 6) 48))
            (List.replicate (1 + (-scale).toNat) 48) (List.replicate (d.prec.precision.getD 6) 48)
            (flagSet d.flags).alternate [] := by
          refine ⟨by simp, ?_, ?_, by simp, .inl rfl⟩ <;>
          · intro c hc
            rw [List.eq_of_mem_replicate hc]; decide
        have hD : Denotes _ 0 := ⟨_, _, _, _, hN, by
          rw [hN.read, ← List.replicate_add, valueIn_replicate_zero]; simp⟩
        exact hD.java _ _ _ _ _
      · rw [hR, hu]
        have := (toPlaces_orderly (d.prec.precision.getD 6)).zero (x := halfUp 0 (d.prec.precision.getD 6) * 10 ^ (-((d.prec.precision.getD 6 : Nat) : Int))) rfl
        simp only [Int.cast_zero, zero_mul, abs_zero]
        exact this.symm
  · have hR : Rounding d = ToDigits (d.prec.precision.getD 6 + 1) := by
      unfold Rounding
      rw [if_neg (by rw [hc]; decide), if_pos (.inl hc)]
    by_cases hz : u = 0
    · obtain ⟨m, ex, h1, h2, h3⟩ := C29_e_zero dates env jdk d h hp hc scale e (by rwa [hz] at he) (by rwa [z0 hz] at hs) rest
      refine ⟨_, h1, _, _, (fixedExp_denotes h2 (exponent_read h3).2).java _ _ _ _ _, by rw [hz]; simp, fun _ => rfl, ?_⟩
      rw [hR, hz]
      exact .inl (by simp)
    · obtain ⟨m, ex, M, x, h1, h2, h3, h4⟩ := C29_e dates env jdk d h hp hc u scale e he n hn hs hz rest
      obtain ⟨hx1, hx2⟩ := bigExponent_read h4
      refine ⟨_, h1, _, _, (fixedExp_denotes h3 hx2).java _ _ _ _ _, s1, s2, ?_⟩
      rw [s3, hR]
      refine .inr ⟨M, x, h2, ?_⟩
      rw [hx1]
      push_cast
      congr 2
      ring
  · have hP : 1 ≤ max 1 (d.prec.precision.getD 6) := le_max_left _ _
    have hR : Rounding d = ToDigits (max 1 (d.prec.precision.getD 6)) := by
      unfold Rounding
      rw [if_neg (by rw [hc]; decide), if_neg (by rw [hc]; decide)]
    by_cases hz : u = 0
    · obtain ⟨body, h1, h2, h3⟩ := C29_g_zero dates env jdk d h hp hc scale e (by rwa [hz] at he) (by rwa [z0 hz] at hs) rest
      have hD : Denotes body 0 := by
        have zero : NumText (js! "0") (js! "0") [] false [] := ⟨by decide, by decide, by decide, by decide, .inl rfl⟩
        by_cases hs0 : scale = 0
        · have := h2 hs0
          split_ifs at this
          · simpa using fixed_denotes this
          · exact ⟨_, _, _, _, this ▸ zero, by rw [this, zero.read]; simp [valueIn, digitVal]⟩
        · obtain ⟨xs, rfl, hx⟩ := h3 hs0
          have hN : NumText (js! "0e" ++ xs) (js! "0") [] false (ch! 'e' :: xs) :=
            ⟨rfl, by decide, by decide, by decide, .inr ⟨xs, rfl, (exponent_read hx).2⟩⟩
          exact ⟨_, _, _, _, hN, by rw [hN.read]; simp [valueIn, digitVal]⟩
      refine ⟨_, h1, _, _, hD.java _ _ _ _ _, by rw [hz]; simp, fun _ => rfl, ?_⟩
      rw [hR, hz]
      exact .inl (by simp)
    · obtain ⟨body, x0, M, x, h1, -, -, h2, h3⟩ := C29_g dates env jdk d h hp hc u scale e he n hn hs hz rest
      refine ⟨_, h1, _, _, (bigGeneral_denotes h2 hP h3).java_pad _ _ _ _ _, s1, s2, ?_⟩
      rw [s3, hR]
      exact .inr ⟨M, x, h2, rfl⟩

theorem reads_hex {dates : DateSyntax} (env : DateEnv) (jdk : JdkEnv) {d : Directive} (h : d.Ok dates) (hp : d.Plain)
    (hc : d.conv = ch! 'a') {bits : BitVec 64} (hf : finite bits) {e : Entry} (he : IsDouble e bits)
    (rest : List Traits) :
    ∃ s, printf dates env d.text (e.toTraits jdk :: rest) = .ok s ∧
      ReadsOff (fun a x => 0 ≤ a ∧ ToHexDigits ((d.prec.precision.filter (· ≤ 12)).map (max 1)) a x)
        (doubleValue bits) s := by
  obtain ⟨s1, s2, s3⟩ := signed_neg (n := negative bits) (magnitude_nonneg bits)
  have nn : 0 ≤ |signed (negative bits) (magnitude bits)| := abs_nonneg _
  cases hn : d.prec.precision with
  | none =>
    obtain ⟨fp, x, body, h1, h2, h3, -⟩ := C27_exact dates env jdk d h hp hc hn bits hf e he rest
    refine ⟨_, h1, _, _, javaNumber_hex h2 _ _ _ _ _, s1, s2, nn, ?_⟩
    unfold doubleValue
    rw [h3, s3]
    rfl
  | some p =>
    by_cases h12 : p ≤ 12
    · by_cases h0 : magnitude bits = 0
      · obtain ⟨fp, x, body, h1, h2, h3, -⟩ := C27_exact_padded dates env jdk d h hp hc p hn bits hf (.inl h0) e he rest
        refine ⟨_, h1, _, _, javaNumber_hex h2 _ _ _ _ _, s1, s2, nn, ?_⟩
        unfold doubleValue
        rw [h3, s3, h0]
        simp only [Option.filter, h12, decide_true, if_true, Option.map_some]
        exact .inl ⟨rfl, rfl⟩
      · obtain ⟨fp, x, body, h1, h2, -, h3⟩ := C27_rounded dates env jdk d h hp hc p hn h12 bits hf h0 e he rest
        refine ⟨_, h1, _, _, javaNumber_hex h2 _ _ _ _ _, s1, s2, nn, ?_⟩
        unfold doubleValue
        rw [s3]
        simp only [Option.filter, h12, decide_true, if_true, Option.map_some]
        exact .inr h3
    · obtain ⟨fp, x, body, h1, h2, h3, -⟩ :=
        C27_exact_padded dates env jdk d h hp hc p hn bits hf (.inr (by omega)) e he rest
      refine ⟨_, h1, _, _, javaNumber_hex h2 _ _ _ _ _, s1, s2, nn, ?_⟩
      unfold doubleValue
      rw [h3, s3]
      simp only [Option.filter, h12, decide_false, Bool.false_eq_true, if_false, Option.map_none]
      rfl

theorem printf_alone {dates : DateSyntax} {env : DateEnv} {d : Directive} (h : d.Ok dates) (hp : d.Plain) (t : Traits)
    (rest : List Traits) : printf dates env d.text (t :: rest) = printf dates env d.text [t] := by
  rw [printf_plain h hp, printf_plain h hp]

theorem isBig_wellBehaved {e : Entry} {u s : Int} (h : IsBig e u s) : WellBehaved e := by cases h <;> trivial

/-- Upper and lower case at once. -/
theorem reads_either {dates : DateSyntax} {env : DateEnv} {jdk : JdkEnv} {d : Directive} (h : d.Ok dates)
    (hp : d.Plain) {lo : JChar} (hl : lo ≠ ch! 't') (hc : d.conv = lo ∨ (lo, d.conv) ∈ casePairs) {e : Entry}
    (he : WellBehaved e) {R : ℚ → ℚ → Prop} {v : ℚ} (rest : List Traits)
    (main : ∀ d' : Directive, d'.Ok dates → d'.Plain → d'.conv = lo → d'.prec = d.prec →
      ∃ s, printf dates env d'.text [e.toTraits jdk] = .ok s ∧ ReadsOff R v s) :
    ∃ s, printf dates env d.text (e.toTraits jdk :: rest) = .ok s ∧ ReadsOff R v s := by
  rw [printf_alone h hp]
  rcases hc with hc | hc
  · exact main d h hp hc rfl
  · obtain ⟨s, h1, h2⟩ := main { d with conv := lo } (lower_ok h hc hl) ⟨hp.width, hp.prec⟩ rfl rfl
    exact ⟨_, upper_of_lower h hc hl he h1, h2.upper⟩

theorem rounding_eq {d d' : Directive} (hp : d'.prec = d.prec) {lo : JChar}
    (hl : lo = ch! 'f' ∨ lo = ch! 'e' ∨ lo = ch! 'g') (hc : d.conv = lo ∨ (lo, d.conv) ∈ casePairs)
    (hc' : d'.conv = lo) : Rounding d' = Rounding d := by
  unfold Rounding
  rw [hp, hc']
  have key : ∀ p ∈ casePairs, (p.1 = ch! 'f' → p.2 = ch! 'F') ∧ (p.1 = ch! 'e' → p.2 = ch! 'E') ∧
    (p.1 = ch! 'g' → p.2 = ch! 'G') := by decide
  rcases hc with hc | hc
  · rw [hc]
  · obtain ⟨k1, k2, k3⟩ := key _ hc
    simp only at k1 k2 k3
    rcases hl with rfl | rfl | rfl
    · rw [k1 rfl]; rfl
    · rw [k2 rfl]; rfl
    · rw [k3 rfl]; rfl

theorem Spec.Amount.reads {dates : DateSyntax} (env : DateEnv) {jdk : JdkEnv} {d : Directive} (h : d.Ok dates)
    (hp : d.Plain) (hc : d.conv ∈ decimalConvs) {e : Entry} {v : ℚ} (hv : Amount jdk e v) (rest : List Traits) :
    ∃ s, printf dates env d.text (e.toTraits jdk :: rest) = .ok s ∧ ReadsOff (Rounding d) v s := by
  obtain ⟨lo, hl, hlc⟩ : ∃ lo, (lo = ch! 'f' ∨ lo = ch! 'e' ∨ lo = ch! 'g') ∧
      (d.conv = lo ∨ (lo, d.conv) ∈ casePairs) := by
    have key : ∀ c ∈ decimalConvs, ∃ lo ∈ js! "feg", (c = lo ∨ (lo, c) ∈ casePairs) := by decide
    obtain ⟨lo, h1, h2⟩ := key _ hc
    refine ⟨lo, ?_, h2⟩
    simpa using h1
  have ht : lo ≠ ch! 't' := by rcases hl with rfl | rfl | rfl <;> decide
  cases hv with
  | big hb hn hs =>
    refine reads_either h hp ht hlc (isBig_wellBehaved hb) rest fun d' h' hp' hc' hprec => ?_
    rw [← rounding_eq hprec hl hlc hc']
    exact reads_big env jdk h' hp' (by rw [hc']; exact hl) hb hn hs []
  | @double bits hb hf q hq =>
    have main : ∀ e', IsDouble e' bits →
        ∃ s, printf dates env d.text (e'.toTraits jdk :: rest) = .ok s ∧
          ReadsOff (Rounding d) (signed (negative bits) q) s := by
      intro e' he'
      refine reads_either h hp ht hlc (isDouble_wellBehaved he') rest fun d' h' hp' hc' hprec => ?_
      rw [← rounding_eq hprec hl hlc hc']
      exact reads_double env jdk h' hp' (by rw [hc']; exact hl) hf he' hq []
    rcases hb with hb | hb
    · exact main e hb
    · have hca : d.conv ∈ allFloatConvs := by
        have key : ∀ c ∈ decimalConvs, c ∈ allFloatConvs := by decide
        exact key _ hc
      rw [C49_read_as_double dates env jdk d h hp hca e bits hb _ (.prim bits) rest]
      exact main _ (.prim bits)

/-- **C91 (decimals).** Under `%f`, `%e`, `%g`, `%F`, `%E` and `%G`, with any flags, width and precision, numbers of
all types keep their order, counting a `double` by its shortest decimal: the text of the smaller one is never the
greater number. -/
theorem C91_decimals (dates : DateSyntax) (env : DateEnv) (jdk : JdkEnv) (d : Directive) (h : d.Ok dates)
    (hp : d.Plain) (hc : d.conv ∈ decimalConvs) (e e' : Entry) (v v' : ℚ) (hv : Amount jdk e v)
    (hv' : Amount jdk e' v') (hle : v ≤ v') (rest rest' : List Traits) :
    ∃ s s', printf dates env d.text (e.toTraits jdk :: rest) = .ok s ∧
      printf dates env d.text (e'.toTraits jdk :: rest') = .ok s' ∧ NotGreater s s' := by
  obtain ⟨s, h1, h2⟩ := hv.reads env h hp hc rest
  obtain ⟨s', h1', h2'⟩ := hv'.reads env h hp hc rest'
  exact ⟨s, s', h1, h1', h2.notGreater (rounding_orderly d) hle h2'⟩

theorem exists_decimal {bits : BitVec 64} (hf : finite bits) : ∃ q, DecimalOf bits q := by
  by_cases h0 : magnitude bits = 0
  · exact ⟨0, .inl ⟨h0, rfl⟩⟩
  · obtain ⟨f, e, n, -, -, -, -, -, h, -⟩ := C26_decimal bits hf h0
    exact ⟨_, .inr ⟨h0, h⟩⟩

/-- The shortest decimals are in the order of the values. -/
theorem C91_shortest {b b' : BitVec 64} (hf : finite b) (hf' : finite b') {q q' : ℚ} (hq : DecimalOf b q)
    (hq' : DecimalOf b' q') (hle : doubleValue b ≤ doubleValue b') :
    signed (negative b) q ≤ signed (negative b') q' := by
  refine signed_mono hle (decimal_nonneg hq) (decimal_nonneg hq') ?_ ?_ (decimalOf_mono hf hf' hq hq')
    (decimalOf_mono hf' hf hq' hq)
  · intro h0; rcases hq with ⟨-, h⟩ | ⟨h1, -⟩
    · exact h
    · exact absurd h0 h1
  · intro h0; rcases hq' with ⟨-, h⟩ | ⟨h1, -⟩
    · exact h
    · exact absurd h0 h1

/-- **C91 (doubles).** Whatever is taken as a finite `double` keeps its order under all eight floating-point
conversions, `%a` included. -/
theorem C91_doubles (dates : DateSyntax) (env : DateEnv) (jdk : JdkEnv) (d : Directive) (h : d.Ok dates)
    (hp : d.Plain) (hc : d.conv ∈ allFloatConvs) (e e' : Entry) (b b' : BitVec 64) (hb : TakenAs jdk e b)
    (hb' : TakenAs jdk e' b') (hf : finite b) (hf' : finite b') (hle : doubleValue b ≤ doubleValue b')
    (rest rest' : List Traits) :
    ∃ s s', printf dates env d.text (e.toTraits jdk :: rest) = .ok s ∧
      printf dates env d.text (e'.toTraits jdk :: rest') = .ok s' ∧ NotGreater s s' := by
  by_cases hd : d.conv ∈ decimalConvs
  · obtain ⟨q, hq⟩ := exists_decimal hf
    obtain ⟨q', hq'⟩ := exists_decimal hf'
    exact C91_decimals dates env jdk d h hp hd e e' _ _ (.double hb hf hq) (.double hb' hf' hq')
      (C91_shortest hf hf' hq hq' hle) rest rest'
  · have hlc : d.conv = ch! 'a' ∨ (ch! 'a', d.conv) ∈ casePairs := by
      have key : ∀ c ∈ allFloatConvs, c ∉ decimalConvs → c = ch! 'a' ∨ (ch! 'a', c) ∈ casePairs := by decide
      exact key _ hc hd
    have main : ∀ (e : Entry) (b : BitVec 64) (rest : List Traits), TakenAs jdk e b → finite b →
        ∃ s, printf dates env d.text (e.toTraits jdk :: rest) = .ok s ∧
          ReadsOff (fun a x => 0 ≤ a ∧ ToHexDigits ((d.prec.precision.filter (· ≤ 12)).map (max 1)) a x)
            (doubleValue b) s := by
      intro e b rest hb hf
      have m : ∀ e', IsDouble e' b →
          ∃ s, printf dates env d.text (e'.toTraits jdk :: rest) = .ok s ∧
            ReadsOff (fun a x => 0 ≤ a ∧ ToHexDigits ((d.prec.precision.filter (· ≤ 12)).map (max 1)) a x)
              (doubleValue b) s := by
        intro e' he'
        refine reads_either h hp (by decide) hlc (isDouble_wellBehaved he') rest fun d' h' hp' hc' hprec => ?_
        rw [← hprec]
        exact reads_hex env jdk h' hp' hc' hf he' []
      rcases hb with hb | hb
      · exact m e hb
      · rw [C49_read_as_double dates env jdk d h hp hc e b hb _ (.prim b) rest]
        exact m _ (.prim b)
    obtain ⟨s, h1, h2⟩ := main e b rest hb hf
    obtain ⟨s', h1', h2'⟩ := main e' b' rest' hb' hf'
    exact ⟨s, s', h1, h1', h2.notGreater (toHexDigits_orderly _) hle h2'⟩

/-! ### Integers and floats -/

theorem doubleValue_sign {b : BitVec 64} : (negative b → doubleValue b = -magnitude b) ∧
    (¬ negative b → doubleValue b = magnitude b) := by
  unfold doubleValue signed
  exact ⟨fun h => by simp [h], fun h => by simp [h]⟩

/-- The nearest doubles are in the order of the numbers. -/
theorem C91_nearest {x y : ℚ} {b b' : BitVec 64} (h : NearestDouble x b) (h' : NearestDouble y b') (hle : x ≤ y) :
    doubleValue b ≤ doubleValue b' := by
  rcases hle.lt_or_eq with hlt | rfl
  swap
  · rw [h.unique h']
  obtain ⟨f, s, r⟩ := h
  obtain ⟨f', s', r'⟩ := h'
  have m := magnitude_nonneg b
  have m' := magnitude_nonneg b'
  -- of two numbers of different magnitude the farther one has the greater magnitude
  have key : ∀ {b b' : BitVec 64} {x y : ℚ}, finite b → finite b' → RoundsTo (magnitude b) (doubleC b % 2 = 0) |x| →
      RoundsTo (magnitude b') (doubleC b' % 2 = 0) |y| → |x| < |y| → magnitude b ≤ magnitude b' := by
    intro b b' x y f f' r r' hlt
    have h1 : |(|x|) - magnitude b| ≤ |(|x|) - magnitude b'| := by
      rcases r _ (magnitude_isFloat f') with g | g | g
      · rw [g]
      · exact g.le
      · exact g.1.le
    have h2 : |(|y|) - magnitude b'| ≤ |(|y|) - magnitude b| := by
      rcases r' _ (magnitude_isFloat f) with g | g | g
      · rw [g]
      · exact g.le
      · exact g.1.le
    generalize |x| = x at *
    generalize |y| = y at *
    by_contra hn
    rcases abs_cases (x - magnitude b) with k | k <;> rcases abs_cases (x - magnitude b') with l | l <;>
      rcases abs_cases (y - magnitude b') with m | m <;> rcases abs_cases (y - magnitude b) with n | n <;> linarith
  by_cases hx : x < 0
  · rw [doubleValue_sign.1 (s.2 hx)]
    by_cases hy : y < 0
    · rw [doubleValue_sign.1 (s'.2 hy)]
      have := key f' f r' r (by rw [abs_of_neg hx, abs_of_neg hy]; linarith)
      linarith
    · rw [doubleValue_sign.2 (fun g => hy (s'.1 g))]
      linarith
  · have hy : ¬ y < 0 := by linarith
    rw [doubleValue_sign.2 (fun g => hx (s.1 g)), doubleValue_sign.2 (fun g => hy (s'.1 g))]
    exact key f f' r r' (by rw [abs_of_nonneg (by linarith), abs_of_nonneg (by linarith)]; exact hlt)

theorem datum_number {b : BitVec 64} {neg : Bool} {v : ℚ} (h : doubleDatum b = .number neg v) :
    finite b ∧ (negative b ↔ neg = true) ∧ doubleValue b = v := by
  unfold doubleDatum at h
  by_cases hx : expBits b = 2047
  · rw [if_pos hx] at h; split_ifs at h
  · rw [if_neg hx] at h
    injection h with h1 h2
    exact ⟨hx, by rw [← h1]; simp, h2⟩

/-- A number is taken as a `double`: itself, or the nearest one. -/
theorem Spec.Magnitude.taken {e : Entry} {v : ℚ} (h : Magnitude e v) (jdk : JdkEnv) :
    ∃ b, TakenAs jdk e b ∧ finite b ∧ ((∃ b', NearestDouble v b' ∧ doubleValue b' = doubleValue b)) := by
  -- a number that is a double is the nearest one
  have self : ∀ b : BitVec 64, finite b → ∃ b', NearestDouble (doubleValue b) b' ∧ doubleValue b' = doubleValue b := by
    intro b hf
    have hr : ∀ b : BitVec 64, finite b → RoundsTo (magnitude b) (doubleC b % 2 = 0) (magnitude b) := by
      intro b hf y hy
      by_cases g : y = magnitude b
      · exact .inl g
      · right; left
        rw [sub_self, abs_zero, abs_pos, sub_ne_zero]
        exact fun h => g h.symm
    have m := magnitude_nonneg b
    by_cases hz : magnitude b = 0
    · refine ⟨0#64, ⟨by unfold finite; decide, ?_, ?_⟩, ?_⟩
      · have : doubleValue b = 0 := by
          unfold doubleValue signed; rw [hz]; simp
        rw [this]; unfold negative; simp
      · have : doubleValue b = 0 := by
          unfold doubleValue signed; rw [hz]; simp
        have e : magnitude 0#64 = 0 := by decide +kernel
        rw [this, abs_zero]
        have := hr 0#64 (by unfold finite; decide)
        rwa [e] at this ⊢
      · have e : magnitude 0#64 = 0 := by decide +kernel
        unfold doubleValue signed; rw [hz, e]; simp
    · have hm : 0 < magnitude b := lt_of_le_of_ne m (Ne.symm hz)
      refine ⟨b, ⟨hf, ?_, ?_⟩, rfl⟩
      · by_cases hn : negative b
        · rw [doubleValue_sign.1 hn]; exact ⟨fun _ => by linarith, fun _ => hn⟩
        · rw [doubleValue_sign.2 hn]; exact ⟨fun g => absurd g hn, fun g => absurd g (by linarith)⟩
      · have : |doubleValue b| = magnitude b := (signed_neg m).2.2
        rw [this]; exact hr b hf
  cases h with
  | @integer x _ h hb =>
    have hl : |x.value| ≤ 2 ^ 63 := by
      cases x with
      | big v => exact absurd rfl (hb v)
      | byte v => have := v.toInt_lt; have := v.le_toInt; simp only [Integral.value]; rw [abs_le]; constructor <;> norm_num at * <;> omega
      | short v => have := v.toInt_lt; have := v.le_toInt; simp only [Integral.value]; rw [abs_le]; constructor <;> norm_num at * <;> omega
      | int v => have := v.toInt_lt; have := v.le_toInt; simp only [Integral.value]; rw [abs_le]; constructor <;> norm_num at * <;> omega
      | long v => have := v.toInt_lt; have := v.le_toInt; simp only [Integral.value]; rw [abs_le]; constructor <;> norm_num at * <;> omega
      | char v => have := v.isLt; simp only [Integral.value]; rw [abs_le]; constructor <;> norm_num at * <;> omega
      | bool b => cases b <;> simp [Integral.value]
    have hn := JavaDouble.ofInt_nearest hl
    exact ⟨_, .inr (.integral h hb hn), hn.1, _, hn, rfl⟩
  | @float _ b h neg v hv =>
    have hd := JavaDouble.ofFloat_datum b
    obtain ⟨hf, -, rfl⟩ := datum_number (hd.trans hv)
    exact ⟨_, .inr (.float h hd), hf, self _ hf⟩
  | @double _ b h neg v hv =>
    obtain ⟨hf, -, rfl⟩ := datum_number hv
    exact ⟨b, .inl h, hf, self _ hf⟩

/-- **C91 (numbers).** Integers of all sizes, `float`s and `double`s keep the order of their values, mixed as they may
be, under all eight floating-point conversions. -/
theorem C91_numbers (dates : DateSyntax) (env : DateEnv) (jdk : JdkEnv) (d : Directive) (h : d.Ok dates)
    (hp : d.Plain) (hc : d.conv ∈ allFloatConvs) (e e' : Entry) (v v' : ℚ) (hv : Magnitude e v)
    (hv' : Magnitude e' v') (hle : v ≤ v') (rest rest' : List Traits) :
    ∃ s s', printf dates env d.text (e.toTraits jdk :: rest) = .ok s ∧
      printf dates env d.text (e'.toTraits jdk :: rest') = .ok s' ∧ NotGreater s s' := by
  obtain ⟨b, h1, h2, a, h3, h4⟩ := hv.taken jdk
  obtain ⟨b', h1', h2', a', h3', h4'⟩ := hv'.taken jdk
  exact C91_doubles dates env jdk d h hp hc e e' b b' h1 h1' h2 h2'
    (by rw [← h4, ← h4']; exact C91_nearest h3 h3' hle) rest rest'

/-! ### Times -/

theorem Spec.MillisOf.taken {e : Entry} {n : Int} (h : MillisOf e n) (jdk : JdkEnv) :
    ∃ a b, TakenAs jdk e b ∧ NearestDouble n a ∧ NearestDouble (doubleValue a / 1000) b := by
  have key : ∀ ms : BitVec 64, ∃ a b, NearestDouble ms.toInt a ∧ NearestDouble (doubleValue a / 1000) b := by
    intro ms
    have hl : |ms.toInt| ≤ 2 ^ 63 := by
      have := ms.toInt_lt; have := ms.le_toInt; rw [abs_le]; constructor <;> norm_num at * <;> omega
    have hn := JavaDouble.ofInt_nearest hl
    obtain ⟨b, hb⟩ := millis_exists hn
    exact ⟨_, b, hn, hb⟩
  cases h with
  | date ms i t id =>
    obtain ⟨a, b, h1, h2⟩ := key ms
    exact ⟨a, b, .inr (.date h1 h2 i t id), h1, h2⟩
  | calendar ms t id =>
    obtain ⟨a, b, h1, h2⟩ := key ms
    exact ⟨a, b, .inr (.calendar h1 h2 t id), h1, h2⟩

/-- **C91 (dates).** Dates and calendars keep their order in time. -/
theorem C91_dates (dates : DateSyntax) (env : DateEnv) (jdk : JdkEnv) (d : Directive) (h : d.Ok dates)
    (hp : d.Plain) (hc : d.conv ∈ allFloatConvs) (e e' : Entry) (n n' : Int) (hn : MillisOf e n)
    (hn' : MillisOf e' n') (hle : n ≤ n') (rest rest' : List Traits) :
    ∃ s s', printf dates env d.text (e.toTraits jdk :: rest) = .ok s ∧
      printf dates env d.text (e'.toTraits jdk :: rest') = .ok s' ∧ NotGreater s s' := by
  obtain ⟨a, b, h1, h2, h3⟩ := hn.taken jdk
  obtain ⟨a', b', h1', h2', h3'⟩ := hn'.taken jdk
  have := C91_nearest h2 h2' (by exact_mod_cast hle)
  exact C91_doubles dates env jdk d h hp hc e e' b b' h1 h1' h3.1 h3'.1
    (C91_nearest h3 h3' (by linarith)) rest rest'

/-- **C91 (points in time).** Points in time of `java.time` keep their order, as long as the seconds are exact
`double`s (for 285 million years before and after 1970). -/
theorem C91_moments (dates : DateSyntax) (env : DateEnv) (jdk : JdkEnv) (d : Directive) (h : d.Ok dates)
    (hp : d.Plain) (hc : d.conv ∈ allFloatConvs) (e e' : Entry) (sec sec' : Int) (nano nano' : Nat)
    (hm : MomentOf jdk e sec nano) (hm' : MomentOf jdk e' sec' nano') (hs : sec.natAbs ≤ 2 ^ 53)
    (hs' : sec'.natAbs ≤ 2 ^ 53) (hle : sec < sec' ∨ sec = sec' ∧ nano ≤ nano') (rest rest' : List Traits) :
    ∃ s s', printf dates env d.text (e.toTraits jdk :: rest) = .ok s ∧
      printf dates env d.text (e'.toTraits jdk :: rest') = .ok s' ∧ NotGreater s s' := by
  have key : ∀ {e : Entry} {sec : Int} {nano : Nat}, MomentOf jdk e sec nano → sec.natAbs ≤ 2 ^ 53 →
      ∃ b c, TakenAs jdk e c ∧ NearestDouble ((nano : ℚ) / 1000000000) b ∧ 0 ≤ doubleValue b ∧ doubleValue b < 1 ∧
        NearestDouble (sec + doubleValue b) c := by
    intro e sec nano hm hs
    cases hm with
    | @temporal t _ _ ht hn s id =>
      obtain ⟨a, b, h1, h2, h3⟩ := instant_rounded (sec := sec) (nano := nano) (by unfold minLong; omega) (by unfold maxLong; omega) hn
      have ha : doubleValue a = sec := by
        refine h1.exact ?_
        rw [← Int.cast_abs, Int.abs_eq_natAbs]
        rcases hs.lt_or_eq with g | g
        · exact ⟨sec.natAbs, 0, g, by norm_num, by simp⟩
        · rw [g]
          exact ⟨2 ^ 52, 1, by norm_num, by norm_num, by norm_num⟩
      have hb0 := h2.nonneg (by positivity)
      have hb1 : |doubleValue b| ≤ (2 ^ 53 - 1 : Nat) * (2 : ℚ) ^ (-53 : Int) := by
        refine h2.abs_le ⟨2 ^ 53 - 1, -53, by norm_num, by norm_num, rfl⟩ ?_
        rw [abs_of_nonneg (by positivity)]
        have : (nano : ℚ) ≤ 999999999 := by exact_mod_cast (by omega : nano ≤ 999999999)
        norm_num
        linarith
      rw [abs_of_nonneg hb0] at hb1
      refine ⟨b, _, .inr (.temporal ht (by unfold minLong; omega) (by unfold maxLong; omega) hn h1 h2 h3 s id), h2, hb0, ?_, by rwa [ha] at h3⟩
      norm_num at hb1
      linarith
  obtain ⟨b, c, h1, h2, h3, h4, h5⟩ := key hm hs
  obtain ⟨b', c', h1', h2', h3', h4', h5'⟩ := key hm' hs'
  refine C91_doubles dates env jdk d h hp hc e e' c c' h1 h1' h5.1 h5'.1 (C91_nearest h5 h5' ?_) rest rest'
  rcases hle with g | ⟨rfl, g⟩
  · have : (sec : ℚ) + 1 ≤ sec' := by exact_mod_cast g
    linarith
  · have : (nano : ℚ) ≤ nano' := by exact_mod_cast g
    have := C91_nearest h2 h2' (by linarith)
    linarith

/-! ### Where the order is lost -/

/-- A `JdkEnv` in which points in time have the given seconds and nanoseconds. -/
def clock (sec : Int) (nano : Nat) : JdkEnv := { sampleJdk with instantFrom := fun _ => some (sec, nano) }

/-- An `Instant` of that clock. -/
def momentArg (sec : Int) (nano : Nat) : Traits :=
  (Entry.ref (.temporal (.obj .instant 0) (.ok (js! "?")) someId)).toTraits (clock sec nano)

/-- The seconds of a point in time are rounded before the fraction is added: beyond `2^53` seconds the earlier of
two points in time can print as the later one. -/
theorem C91_moments_witness :
    printf ⟨fun _ => true⟩ sampleDateEnv (js! "%.0f %.0f")
        [momentArg (-9007199254740993) 750000000, momentArg (-9007199254740992) 0] =
      .ok (js! "-9007199254740991 -9007199254740992") := by
  decide +kernel

/-- A `double` is printed from its shortest decimal, a `BigDecimal` from its value, and a `long` from the nearest
`double`.  So 0.1, which is greater than 0.1000000000000000001 as a `double`, prints as less; and the `long`
9007199254740993 as less than the `BigDecimal` 9007199254740992.5. -/
theorem C91_mixed_witness :
    printf ⟨fun _ => true⟩ sampleDateEnv (js! "%.20f %.20f") [doubleArg 0x3FB999999999999A#64, bigArg 1000000000000000001 19] =
      .ok (js! "0.10000000000000000000 0.10000000000000000010") ∧
    ((1000000000000000001 : ℚ) * 10 ^ (-(19 : Int)) < doubleValue 0x3FB999999999999A#64) ∧
    printf ⟨fun _ => true⟩ sampleDateEnv (js! "%.0f %.0f") [(Prim.long 9007199254740993#64).traits sampleJdk .primitive,
      bigArg 90071992547409925 1] = .ok (js! "9007199254740992 9007199254740993") := by
  decide +kernel

/-! ### Examples -/

-- the hypotheses are met: `%+.3e` of a `BigDecimal`, of a `double` and of a text
example : ∃ s s', printf ⟨fun _ => true⟩ sampleDateEnv (js! "%+.3e") [(Entry.ref (.bigDecimal (-25) 1 someId)).toTraits sampleJdk] = .ok s ∧
    printf ⟨fun _ => true⟩ sampleDateEnv (js! "%+.3e") [(Entry.prim (.double 0#64)).toTraits sampleJdk] = .ok s' ∧ NotGreater s s' :=
  C91_decimals ⟨fun _ => true⟩ sampleDateEnv sampleJdk
    { flags := js! "+", width := .absent, prec := .digits (js! "3"), conv := ch! 'e', date := none }
    ⟨by decide, by decide, trivial, ⟨by simp [IsDigit], by decide⟩, by decide, by intro p hp; exact absurd hp (by simp),
      by intro hc; exact absurd hc (by decide)⟩ ⟨by decide, by decide⟩ (by decide)
    _ _ ((-25 : Int) * 10 ^ (-(1 : Int))) (signed (negative 0#64) 0)
    (.big (.decimal (-25) 1 someId) ⟨js! "25", by unfold Shortest IsNumeral NoExtraZero; decide, rfl⟩
      (by unfold ScaleOk; decide))
    (.double (.inl (.prim _)) (by unfold finite; decide) (.inl ⟨by decide +kernel, rfl⟩)) (by norm_num [signed]) [] []
example : printf ⟨fun _ => true⟩ sampleDateEnv (js! "%+.3e %+.3e %+.3E") [bigArg (-25) 1, doubleArg 0#64, bigArg 1 (-400)] =
    .ok (js! "-2.500e+00 +0.000e+00 +1.000E+400") := by decide +kernel
-- an integer and a `float` under `%A`
example : Magnitude (.prim (.int 1#32)) 1 ∧ Magnitude (.prim (.float 0x3FC00000#32)) (3 / 2) :=
  ⟨by simpa [Integral.value] using Magnitude.integer (x := .int 1#32) (.prim rfl) (by simp),
    .float (neg := false) (.prim _) (by
      rw [floatDatum, if_neg (by decide)]
      exact congrArg₂ _ (by decide) (by decide +kernel))⟩
example : printf ⟨fun _ => true⟩ sampleDateEnv (js! "%A %A") [intArg 1#32, (Prim.float 0x3FC00000#32).traits sampleJdk .primitive] =
    .ok (js! "0X1.0P+0 0X1.8P+0") := by decide +kernel
-- two points in time
example : MomentOf (clock (-1) 500000000) (.ref (.temporal (.obj .instant 0) (.ok (js! "?")) someId)) (-1) 500000000 :=
  .temporal rfl (by norm_num) _ _
example : printf ⟨fun _ => true⟩ sampleDateEnv (js! "%.1f %.1f") [momentArg (-1) 500000000, momentArg 0 100000000] =
    .ok (js! "-0.5 0.1") := by decide +kernel
example : MillisOf (.ref (.object (.calendar 5#64) (.ok (js! "?")) someId)) 5 := .calendar 5#64 _ _

end FastPrintf
