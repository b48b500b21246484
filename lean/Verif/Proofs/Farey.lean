/-
The multiples of `2^q / 10^k` stay away from the integers (unless they are integers): for each `q` two
Farey neighbours of the ratio are checked, and Farey's theorem then covers every multiplier.
The same check covers the table `g` of powers of ten and the three logarithm functions.
-/
import Verif.Model.DoubleToDecimal
import Verif.Proofs.FareyTable
import Mathlib.Tactic.Linarith
import Mathlib.Tactic.Ring
import Mathlib.Tactic.LinearCombination

namespace FastPrintf.Farey

open MathUtils

/-- `2^q / 10^k = ratioA q k / ratioB q k`. -/
def ratioA (q k : Int) : Nat := 2 ^ q.toNat * 10 ^ (-k).toNat
def ratioB (q k : Int) : Nat := 2 ^ (-q).toNat * 10 ^ k.toNat

theorem ratioB_pos (q k : Int) : 0 < ratioB q k := by unfold ratioB; positivity
theorem ratioA_pos (q k : Int) : 0 < ratioA q k := by unfold ratioA; positivity

/-- The multiple `m * (A / B)` is an integer, or it is far enough from the next integer, and (if its
floor is even) far enough from the previous one. -/
def Good (A B m : Nat) : Prop :=
  m * A % B = 0 ∨ (B ≤ (B - m * A % B) * 2 ^ 66 ∧ (m * A / B % 2 = 1 ∨ B ≤ m * A % B * 2 ^ 63))

instance (A B m : Nat) : Decidable (Good A B m) := by unfold Good; infer_instance

/-- Farey's theorem, as needed: `p1/n1 ≤ A/B ≤ p2/n2` are neighbours and `m < n1 + n2`. -/
theorem farey {A B n1 p1 n2 p2 m p : Int} (hdet : p2 * n1 = p1 * n2 + 1) (h1 : p1 * B ≤ n1 * A)
    (h2 : n2 * A ≤ p2 * B) (hn1 : 0 < n1) (hn2 : 0 < n2) (hm : 0 ≤ m) (hlt : m < n1 + n2) :
    (p * B < m * A → n1 * A - p1 * B ≤ m * A - p * B ∧
      (n1 * A = p1 * B → p2 * B - n2 * A ≤ m * A - p * B)) ∧
    (m * A < p * B → p2 * B - n2 * A ≤ p * B - m * A) := by
  -- `(m, p) = i (n1, p1) + j (n2, p2)`
  obtain ⟨i, hi⟩ : ∃ i, i = m * p2 - p * n2 := ⟨_, rfl⟩
  obtain ⟨j, hj⟩ : ∃ j, j = p * n1 - m * p1 := ⟨_, rfl⟩
  have e1 : i * n1 + j * n2 = m := by
    rw [hi, hj]; linear_combination m * hdet
  have e2 : i * p1 + j * p2 = p := by
    rw [hi, hj]; linear_combination p * hdet
  have e3 : m * A - p * B = i * (n1 * A - p1 * B) - j * (p2 * B - n2 * A) := by
    rw [← e1, ← e2]; ring
  obtain ⟨r1, hr1⟩ : ∃ r1, r1 = n1 * A - p1 * B := ⟨_, rfl⟩
  obtain ⟨r2, hr2⟩ : ∃ r2, r2 = p2 * B - n2 * A := ⟨_, rfl⟩
  have r1n : 0 ≤ r1 := by omega
  have r2n : 0 ≤ r2 := by omega
  rw [← hr1, ← hr2] at e3
  refine ⟨fun hpos => ?_, fun hneg => ?_⟩
  · have hpos' : 0 < i * r1 - j * r2 := by omega
    have hi1 : 1 ≤ i := by
      by_contra hle
      have hi0 : i ≤ 0 := by omega
      have : i * r1 ≤ 0 := by nlinarith
      have hj0 : j < 0 := by
        by_contra hj0
        have : 0 ≤ j * r2 := by nlinarith
        omega
      nlinarith
    have hj0 : j ≤ 0 := by
      by_contra hj1
      nlinarith
    have a1 : r1 ≤ i * r1 := by nlinarith
    have a2 : j * r2 ≤ 0 := by nlinarith
    refine ⟨by omega, fun hz => ?_⟩
    have hz' : r1 = 0 := by omega
    rw [hz', mul_zero] at hpos' e3
    have hj1 : j ≤ -1 := by
      rcases eq_or_lt_of_le hj0 with h | h
      · rw [h] at hpos'; omega
      · omega
    have : r2 ≤ -(j * r2) := by nlinarith
    omega
  · have hneg' : i * r1 - j * r2 < 0 := by omega
    have hj1 : 1 ≤ j := by
      by_contra hle
      have hj0 : j ≤ 0 := by omega
      have : j * r2 ≤ 0 := by nlinarith
      have hi0 : i < 0 := by
        by_contra hi0
        have : 0 ≤ i * r1 := by nlinarith
        omega
      nlinarith
    have hi0 : i ≤ 0 := by
      by_contra hi1
      nlinarith
    have a1 : r2 ≤ j * r2 := by nlinarith
    have a2 : i * r1 ≤ 0 := by nlinarith
    omega

/-- The check of one pair of neighbours with denominators `n1`, `n2` against the bound `M`. -/
def neighbours (A B M n1 n2 : Nat) : Bool :=
  let p1 := n1 * A / B
  let p2 := (p1 * n2 + 1) / n1
  0 < n1 && 0 < n2 && M < n1 + n2 && p2 * n1 == p1 * n2 + 1 && decide (n2 * A ≤ p2 * B)

/-- The distances of the neighbours. -/
def lowDist (A B n1 : Nat) : Nat := n1 * A % B
def highDist (A B n1 n2 : Nat) : Nat := (n1 * A / B * n2 + 1) / n1 * B - n2 * A

theorem far {A B M n1 n2 : Nat} (hB : 0 < B) (h : neighbours A B M n1 n2 = true) {m : Nat} (hm : m ≤ M)
    (hr : m * A % B ≠ 0) :
    lowDist A B n1 ≤ m * A % B ∧ (lowDist A B n1 = 0 → highDist A B n1 n2 ≤ m * A % B) ∧
    highDist A B n1 n2 ≤ B - m * A % B := by
  simp only [neighbours, Bool.and_eq_true, decide_eq_true_eq, beq_iff_eq] at h
  obtain ⟨⟨⟨⟨a1, a2⟩, a3⟩, a4⟩, a5⟩ := h
  unfold lowDist highDist
  obtain ⟨p1, hp1⟩ : ∃ p1, p1 = n1 * A / B := ⟨_, rfl⟩
  obtain ⟨p2, hp2⟩ : ∃ p2, p2 = (p1 * n2 + 1) / n1 := ⟨_, rfl⟩
  have b1 : n1 * A = p1 * B + n1 * A % B := by rw [hp1, Nat.div_add_mod']
  rw [← hp1] at a4 a5 ⊢
  rw [← hp2] at a4 a5 ⊢
  obtain ⟨p, hp⟩ : ∃ p, p = m * A / B := ⟨_, rfl⟩
  have b2 : m * A = p * B + m * A % B := by rw [hp, Nat.div_add_mod']
  have b3 : m * A % B < B := Nat.mod_lt _ hB
  have b1' : (p1 * B : Nat) ≤ n1 * A := by omega
  have f1 := (farey (A := A) (B := B) (n1 := n1) (p1 := p1) (n2 := n2) (p2 := p2) (m := m) (p := p)
    (by exact_mod_cast a4) (by exact_mod_cast b1') (by exact_mod_cast a5)
    (by exact_mod_cast a1) (by exact_mod_cast a2) (by positivity) (by omega)).1
  have f2 := (farey (A := A) (B := B) (n1 := n1) (p1 := p1) (n2 := n2) (p2 := p2) (m := m)
    (p := (p + 1 : Nat))
    (by exact_mod_cast a4) (by exact_mod_cast b1') (by exact_mod_cast a5)
    (by exact_mod_cast a1) (by exact_mod_cast a2) (by positivity) (by omega)).2
  have b4 : ((p + 1 : Nat) : Int) * B = p * B + B := by push_cast; ring
  rw [b4] at f2
  generalize n1 * A % B = x1 at *
  generalize m * A % B = x at *
  zify at b1 b2 a5
  generalize (m : Int) * A = mA at *
  generalize (p : Int) * B = pB at *
  generalize (n1 : Int) * A = nA at *
  generalize (p1 : Int) * B = p1B at *
  have g1 := f1 (by omega)
  have g2 := f2 (by omega)
  have c1 : ((p2 * B - n2 * A : Nat) : Int) = p2 * B - n2 * A := by
    rw [Nat.cast_sub (by exact_mod_cast a5)]; push_cast; ring
  refine ⟨by omega, fun hz => ?_, ?_⟩
  · have := g1.2 (by omega)
    omega
  · omega

/-- The check of the four denominators. -/
def certOK (A B : Nat) (c : Nat × Nat × Nat × Nat) : Bool :=
  neighbours A B (2 ^ 55 + 2) c.1 c.2.1 && B ≤ highDist A B c.1 c.2.1 * 2 ^ 66 &&
  neighbours A B (2 ^ 54 + 1) c.2.2.1 c.2.2.2 &&
  (B ≤ lowDist A B c.2.2.1 * 2 ^ 64 ||
    (lowDist A B c.2.2.1 == 0 && B ≤ highDist A B c.2.2.1 c.2.2.2 * 2 ^ 64))

/-- Every even multiplier is covered. -/
theorem good_of_cert {A B : Nat} (hB : 0 < B) {c : Nat × Nat × Nat × Nat} (h : certOK A B c = true)
    {m : Nat} (hm : m ≤ 2 ^ 54 + 1) : Good A B (2 * m) := by
  simp only [certOK, Bool.and_eq_true, decide_eq_true_eq, Bool.or_eq_true, beq_iff_eq] at h
  obtain ⟨⟨⟨h1, h2⟩, h3⟩, h4⟩ := h
  unfold Good
  by_cases hz : 2 * m * A % B = 0
  · exact .inl hz
  right
  obtain ⟨-, -, f1⟩ := far hB h1 (m := 2 * m) (by omega) hz
  refine ⟨h2.trans (Nat.mul_le_mul_right _ f1), ?_⟩
  by_cases hmz : m * A % B = 0
  · exfalso
    apply hz
    rw [mul_assoc, Nat.mul_mod, hmz]; simp
  obtain ⟨l1, l2, -⟩ := far hB h3 hm hmz
  have hlow : B ≤ m * A % B * 2 ^ 64 := by
    rcases h4 with h4 | ⟨h4, h5⟩
    · exact h4.trans (Nat.mul_le_mul_right _ l1)
    · exact h5.trans (Nat.mul_le_mul_right _ (l2 h4))
  have b2 : m * A = B * (m * A / B) + m * A % B := (Nat.div_add_mod _ _).symm
  have b3 : m * A % B < B := Nat.mod_lt _ hB
  have b4 : 2 * m * A = 2 * (m * A % B) + B * (2 * (m * A / B)) := by
    rw [mul_assoc]
    conv_lhs => rw [b2]
    ring
  rw [b4, Nat.add_mul_div_left _ _ hB, Nat.add_mul_mod_self_left (2 * (m * A % B)) B]
  generalize m * A % B = r at *
  generalize m * A / B = p at *
  by_cases hge : B ≤ 2 * r
  · left
    have : 2 * r / B = 1 := by
      refine (Nat.div_eq_iff hB).2 ⟨by omega, by omega⟩
    omega
  · right
    rw [Nat.mod_eq_of_lt (by omega)]
    have e : 2 * r * 2 ^ 63 = r * 2 ^ 64 := by ring
    rw [e]; exact hlow

/-- The table entry `g`, with the shift distance `h`, approximates `2^127 * 2^q / 10^k` from above. -/
structure Params (q k : Int) (h g1 g0 : Nat) : Prop where
  h2 : 2 ≤ h
  h5 : h ≤ 5
  g1lt : g1 < 2 ^ 63
  g0lt : g0 < 2 ^ 63
  lo : 2 ^ 127 * ratioA q k < 2 ^ h * (g1 * 2 ^ 63 + g0) * ratioB q k
  hi : 2 ^ h * (g1 * 2 ^ 63 + g0) * ratioB q k ≤ 2 ^ 127 * ratioA q k + 2 ^ h * ratioB q k
  kmin : -324 ≤ k
  entry : gTable[(k + 324).toNat]? = some (g1, g0)
  shift : q + flog2pow10 (-k) + 2 = h

/-- The check of `Params`. -/
def paramsOK (q k : Int) : Bool :=
  match gTable[(k + 324).toNat]? with
  | none => false
  | some (g1, g0) =>
    let h := (q + flog2pow10 (-k) + 2).toNat
    decide (2 ≤ q + flog2pow10 (-k) + 2) && h ≤ 5 && g1 < 2 ^ 63 && g0 < 2 ^ 63 &&
    2 ^ 127 * ratioA q k < 2 ^ h * (g1 * 2 ^ 63 + g0) * ratioB q k &&
    2 ^ h * (g1 * 2 ^ 63 + g0) * ratioB q k ≤ 2 ^ 127 * ratioA q k + 2 ^ h * ratioB q k &&
    decide (-324 ≤ k)

theorem params_of_ok {q k : Int} (h : paramsOK q k = true) : ∃ h g1 g0, Params q k h g1 g0 := by
  unfold paramsOK at h
  split at h
  · cases h
  · rename_i g1 g0 hg
    simp only [Bool.and_eq_true, decide_eq_true_eq] at h
    obtain ⟨⟨⟨⟨⟨⟨a1, a2⟩, a3⟩, a4⟩, a5⟩, a6⟩, a7⟩ := h
    exact ⟨_, g1, g0, by omega, a2, a3, a4, a5, a6, a7, hg, by omega⟩

/-- What is known about a regular exponent. -/
structure Regular (q : Int) : Prop where
  params : ∃ h g1 g0, Params q (flog10pow2 q) h g1 g0
  ge : ratioB q (flog10pow2 q) ≤ ratioA q (flog10pow2 q)
  lt : ratioA q (flog10pow2 q) < 10 * ratioB q (flog10pow2 q)
  ne : q ≠ 0 → ratioB q (flog10pow2 q) < ratioA q (flog10pow2 q)
  good : ∀ m ≤ 2 ^ 54 + 1, Good (ratioA q (flog10pow2 q)) (ratioB q (flog10pow2 q)) (2 * m)

def regularOK (q : Int) (c : Nat × Nat × Nat × Nat) : Bool :=
  let k := flog10pow2 q
  let A := ratioA q k
  let B := ratioB q k
  paramsOK q k && B ≤ A && A < 10 * B && (decide (q = 0) || B < A) && certOK A B c

theorem regular_of_ok {q : Int} {c : Nat × Nat × Nat × Nat} (h : regularOK q c = true) : Regular q := by
  simp only [regularOK, Bool.and_eq_true, decide_eq_true_eq, Bool.or_eq_true] at h
  obtain ⟨⟨⟨⟨a1, a2⟩, a3⟩, a4⟩, a5⟩ := h
  exact ⟨params_of_ok a1, a2, a3, fun hq => a4.resolve_left hq, fun m hm =>
    good_of_cert (ratioB_pos _ _) a5 hm⟩

/-- What is known about the lower end of a binade. -/
structure Irregular (q : Int) : Prop where
  params : ∃ h g1 g0, Params q (flog10threeQuartersPow2 q) h g1 g0
  ge : 4 * ratioB q (flog10threeQuartersPow2 q) ≤ 3 * ratioA q (flog10threeQuartersPow2 q)
  lt : 3 * ratioA q (flog10threeQuartersPow2 q) < 40 * ratioB q (flog10threeQuartersPow2 q)
  good : ∀ m ∈ [2 ^ 54, 2 ^ 54 - 1, 2 ^ 54 + 2],
    Good (ratioA q (flog10threeQuartersPow2 q)) (ratioB q (flog10threeQuartersPow2 q)) m

def irregularOK (q : Int) : Bool :=
  let k := flog10threeQuartersPow2 q
  let A := ratioA q k
  let B := ratioB q k
  paramsOK q k && 4 * B ≤ 3 * A && 3 * A < 40 * B &&
    [2 ^ 54, 2 ^ 54 - 1, 2 ^ 54 + 2].all fun m => decide (Good A B m)

theorem irregular_of_ok {q : Int} (h : irregularOK q = true) : Irregular q := by
  simp only [irregularOK, Bool.and_eq_true, decide_eq_true_eq, List.all_eq_true] at h
  obtain ⟨⟨⟨a1, a2⟩, a3⟩, a4⟩ := h
  exact ⟨params_of_ok a1, a2, a3, a4⟩

/-- All checks, along the list of certificates. -/
def allOK : Int → List (Nat × Nat × Nat × Nat) → Bool
  | _, [] => true
  | q, c :: cs => regularOK q c && irregularOK q && allOK (q + 1) cs

theorem all_of_ok {q0 : Int} {cs : List (Nat × Nat × Nat × Nat)} (h : allOK q0 cs = true) {q : Int}
    (h1 : q0 ≤ q) (h2 : q < q0 + cs.length) : Regular q ∧ Irregular q := by
  induction cs generalizing q0 with
  | nil => simp only [List.length_nil] at h2; omega
  | cons c cs ih =>
    simp only [allOK, Bool.and_eq_true] at h
    obtain ⟨⟨a1, a2⟩, a3⟩ := h
    by_cases hq : q = q0
    · subst hq; exact ⟨regular_of_ok a1, irregular_of_ok a2⟩
    · refine ih a3 (by omega) ?_
      simp only [List.length_cons] at h2
      push_cast at h2; omega

theorem certs_ok : allOK (-1074) certs = true := by decide +kernel

theorem certs_length : certs.length = 2046 := by decide +kernel

/-- **The table is right** for every exponent of a binary64. -/
theorem exponents {q : Int} (h1 : -1074 ≤ q) (h2 : q ≤ 971) : Regular q ∧ Irregular q :=
  all_of_ok certs_ok h1 (by rw [certs_length]; omega)

end FastPrintf.Farey
