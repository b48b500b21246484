/-
`rop` computes the rounded-to-odd product, and `choose` compares such products: `DoubleToDecimal`'s
64-bit arithmetic as arithmetic on natural numbers.
-/
import Verif.Proofs.Farey
import Mathlib.Tactic.Zify
import Mathlib.Tactic.NormNum

namespace FastPrintf.DoubleToDecimal

open MathUtils MultiplyHigh Farey

theorem multiplyHigh_toNat {x y : BitVec 64} (hx : x.toNat < 2 ^ 63) (hy : y.toNat < 2 ^ 63) :
    (multiplyHigh x y).toNat = x.toNat * y.toNat / 2 ^ 64 := by
  unfold multiplyHigh jdkMultiplyHigh
  rw [BitVec.toInt_eq_toNat_of_lt (by omega), BitVec.toInt_eq_toNat_of_lt (by omega),
    BitVec.toNat_ofInt]
  have h1 : x.toNat * y.toNat < 2 ^ 63 * 2 ^ 63 := Nat.mul_lt_mul'' hx hy
  have h2 : x.toNat * y.toNat / 2 ^ 64 < 2 ^ 64 := by
    rw [Nat.div_lt_iff_lt_mul (by positivity)]; omega
  have e : ((x.toNat : Int) * y.toNat / 2 ^ 64) = ((x.toNat * y.toNat / 2 ^ 64 : Nat) : Int) := by
    push_cast; rfl
  rw [e]
  generalize x.toNat * y.toNat / 2 ^ 64 = w at *
  omega

/-- Rounding `N / B` to odd: exact integers and odd floors stay, other values round up. -/
def rod (N B : Nat) : Nat := if N % B = 0 ∨ N / B % 2 = 1 then N / B else N / B + 1

section rod
variable {N B E : Nat} (hB : 0 < B)

theorem rod_cases : (rod N B = N / B ∧ (N % B = 0 ∨ N / B % 2 = 1)) ∨
    (rod N B = N / B + 1 ∧ N % B ≠ 0 ∧ N / B % 2 = 0) := by
  unfold rod; split
  · rename_i h; exact .inl ⟨rfl, h⟩
  · rename_i h; exact .inr ⟨rfl, by omega, by omega⟩

include hB

theorem rod_lt (hE : E % 2 = 0) : rod N B < E ↔ N < E * B := by
  rw [← Nat.div_lt_iff_lt_mul hB]
  rcases rod_cases (N := N) (B := B) with ⟨h1, h2⟩ | ⟨h1, h2, h3⟩ <;> omega

theorem le_rod (hE : E % 2 = 0) : E ≤ rod N B ↔ E * B ≤ N := by
  have := rod_lt (N := N) hB hE; omega

theorem lt_rod (hE : E % 2 = 0) : E < rod N B ↔ E * B < N := by
  have hd := Nat.div_add_mod N B
  have hm := Nat.mod_lt N hB
  have h0 : E ≤ N / B ↔ E * B ≤ N := Nat.le_div_iff_mul_le hB
  have h1 : E + 1 ≤ N / B ↔ (E + 1) * B ≤ N := Nat.le_div_iff_mul_le hB
  rw [Nat.add_mul] at h1
  have h4 : N / B = E → N = E * B + N % B := fun h => by rw [h, Nat.mul_comm] at hd; omega
  rcases rod_cases (N := N) (B := B) with ⟨h2, h3⟩ | ⟨h2, h3, h5⟩ <;> omega

theorem rod_le (hE : E % 2 = 0) : rod N B ≤ E ↔ N ≤ E * B := by
  have := lt_rod (N := N) hB hE; omega

omit hB in
theorem rod_div4 : rod N B / 4 = N / (B * 4) := by
  rw [← Nat.div_div_eq_div_mul]
  rcases rod_cases (N := N) (B := B) with ⟨h1, h2⟩ | ⟨h1, h2, h3⟩ <;> omega

omit hB in
theorem rod_le_succ : rod N B ≤ N / B + 1 := by
  rcases rod_cases (N := N) (B := B) with ⟨h1, h2⟩ | ⟨h1, h2, h3⟩ <;> omega

end rod

/-- `rop` in terms of the exact product: the integer part of `cp * g / 2^127`, with the sticky bit. -/
theorem rop_toNat {g1 g0 cp : BitVec 64} (h1 : g1.toNat < 2 ^ 63) (h0 : g0.toNat < 2 ^ 63)
    (hc : cp.toNat < 2 ^ 61) (h4 : cp.toNat % 2 = 0) {Q : Nat}
    (hQ : Q = cp.toNat * (g1.toNat * 2 ^ 63 + g0.toNat) / 2 ^ 64) :
    (rop g1 g0 cp).toNat = Q / 2 ^ 63 ||| (if Q % 2 ^ 63 = 0 then 0 else 1) := by
  have hx1 : (multiplyHigh g0 cp).toNat = g0.toNat * cp.toNat / 2 ^ 64 := multiplyHigh_toNat h0 (by omega)
  have hy1 : (multiplyHigh g1 cp).toNat = g1.toNat * cp.toNat / 2 ^ 64 := multiplyHigh_toNat h1 (by omega)
  have hy0 : (g1 * cp).toNat = g1.toNat * cp.toNat % 2 ^ 64 := BitVec.toNat_mul _ _
  obtain ⟨P0, hP0⟩ : ∃ P0, P0 = g0.toNat * cp.toNat := ⟨_, rfl⟩
  obtain ⟨P1, hP1⟩ : ∃ P1, P1 = g1.toNat * cp.toNat := ⟨_, rfl⟩
  have b0 : P0 < 2 ^ 63 * 2 ^ 61 := by rw [hP0]; exact Nat.mul_lt_mul'' h0 hc
  have b1 : P1 < 2 ^ 63 * 2 ^ 61 := by rw [hP1]; exact Nat.mul_lt_mul'' h1 hc
  have ev : P1 % 2 = 0 := by rw [hP1, Nat.mul_mod, h4]; simp
  have hQ' : Q = (P1 * 2 ^ 63 + P0) / 2 ^ 64 := by rw [hQ, hP0, hP1]; congr 1; ring
  rw [← hP0] at hx1
  rw [← hP1] at hy1 hy0
  have hz : ((g1 * cp) >>> 1 + multiplyHigh g0 cp).toNat = P1 % 2 ^ 64 / 2 + P0 / 2 ^ 64 := by
    rw [BitVec.toNat_add, BitVec.toNat_ushiftRight, hx1, hy0, Nat.shiftRight_eq_div_pow]
    omega
  generalize hzz : (g1 * cp) >>> 1 + multiplyHigh g0 cp = z at hz
  have eQ : Q = P1 / 2 ^ 64 * 2 ^ 63 + z.toNat := by rw [hQ', hz]; omega
  have zlt : z.toNat < 2 ^ 64 := z.isLt
  have hm : (z &&& MASK_63).toNat = z.toNat % 2 ^ 63 := by
    rw [BitVec.toNat_and]
    rw [show MASK_63.toNat = 2 ^ 63 - 1 from by decide]
    exact Nat.and_two_pow_sub_one_eq_mod z.toNat 63
  have hs : (((z &&& MASK_63) + MASK_63) >>> 63).toNat = if Q % 2 ^ 63 = 0 then 0 else 1 := by
    rw [BitVec.toNat_ushiftRight, BitVec.toNat_add, hm, Nat.shiftRight_eq_div_pow]
    rw [show MASK_63.toNat = 2 ^ 63 - 1 from by decide]
    split <;> omega
  have hv : (multiplyHigh g1 cp + (z >>> 63)).toNat = Q / 2 ^ 63 := by
    rw [BitVec.toNat_add, hy1, BitVec.toNat_ushiftRight, Nat.shiftRight_eq_div_pow, eQ]
    omega
  unfold rop
  simp only [hzz]
  rw [BitVec.toNat_or, hs, hv]

theorem or_sticky (n : Nat) (c : Prop) [Decidable c] :
    (n ||| (if c then 0 else 1)) = if c ∨ n % 2 = 1 then n else n + 1 := by
  by_cases hc : c
  · simp [hc]
  · simp only [hc, if_false, false_or]
    have h1 : n ||| 1 = 2 * (n / 2) + 1 := by
      have h := Nat.or_div_two (a := n) (b := 1)
      have h' : (n ||| 1) % 2 = 1 := Nat.or_mod_two_eq_one.2 (.inr rfl)
      have h2 := Nat.div_add_mod (n ||| 1) 2
      rw [h, h'] at h2
      simpa using h2.symm
    rw [h1]; split <;> omega

/-- **`rop` rounds to odd**, given a good table entry. -/
theorem rop_eq_rod {q k : Int} {h g1 g0 : Nat} (p : Params q k h g1 g0) {m : Nat}
    (hm : m ≤ 2 ^ 55 + 2) (good : Good (ratioA q k) (ratioB q k) m) {G1 G0 cp : BitVec 64}
    (e1 : G1.toNat = g1) (e0 : G0.toNat = g0) (ecp : cp.toNat = m * 2 ^ h) :
    (rop G1 G0 cp).toNat = rod (m * ratioA q k) (ratioB q k) := by
  have hB := ratioB_pos q k
  obtain ⟨A, hA⟩ : ∃ A, A = ratioA q k := ⟨_, rfl⟩
  obtain ⟨B, hBB⟩ : ∃ B, B = ratioB q k := ⟨_, rfl⟩
  have lo := p.lo
  have hi := p.hi
  rw [← hA, ← hBB] at lo hi good ⊢
  rw [← hBB] at hB
  have hcp : m * 2 ^ h < 2 ^ 61 := by
    have : 2 ^ h ≤ 2 ^ 5 := Nat.pow_le_pow_right (by omega) p.h5
    have : m * 2 ^ h ≤ (2 ^ 55 + 2) * 2 ^ 5 := Nat.mul_le_mul hm this
    omega
  have hev : m * 2 ^ h % 2 = 0 := by
    obtain ⟨j, hj⟩ : ∃ j, h = j + 1 := ⟨h - 1, by have := p.h2; omega⟩
    rw [hj, pow_succ, ← mul_assoc, Nat.mul_mod_left]
  rw [rop_toNat (by rw [e1]; exact p.g1lt) (by rw [e0]; exact p.g0lt) (by rw [ecp]; exact hcp)
    (by rw [ecp]; exact hev) rfl, ecp, e1, e0]
  obtain ⟨g, hg⟩ : ∃ g, g = g1 * 2 ^ 63 + g0 := ⟨_, rfl⟩
  rw [← hg] at lo hi ⊢
  obtain ⟨P, hP⟩ : ∃ P, P = m * 2 ^ h * g := ⟨_, rfl⟩
  rw [← hP]
  -- `m A / B < P / 2^127 ≤ m A / B + 2^-66`, roughly
  obtain ⟨n, hn⟩ : ∃ n, n = m * A / B := ⟨_, rfl⟩
  obtain ⟨r, hr⟩ : ∃ r, r = m * A % B := ⟨_, rfl⟩
  have hN : m * A = B * n + r := by rw [hn, hr, Nat.div_add_mod]
  have hrB : r < B := by rw [hr]; exact Nat.mod_lt _ hB
  have lo' : 2 ^ 127 * (B * n + r) ≤ P * B := by
    have := Nat.mul_le_mul_left m lo.le
    calc 2 ^ 127 * (B * n + r) = m * (2 ^ 127 * A) := by rw [← hN]; ring
      _ ≤ _ := this
      _ = _ := by rw [hP]; ring
  have hi' : P * B ≤ 2 ^ 127 * (B * n + r) + (2 ^ 61 - 1) * B := by
    have := Nat.mul_le_mul_left m hi
    calc P * B = m * (2 ^ h * g * B) := by rw [hP]; ring
      _ ≤ _ := this
      _ = 2 ^ 127 * (B * n + r) + m * 2 ^ h * B := by rw [← hN]; ring
      _ ≤ _ := by
        have : m * 2 ^ h ≤ 2 ^ 61 - 1 := by omega
        have := Nat.mul_le_mul_right B this
        omega
  rw [or_sticky]
  unfold rod
  rw [← hn, ← hr]
  have plo : 2 ^ 127 * n ≤ P := by
    by_contra hlt
    have : P + 1 ≤ 2 ^ 127 * n := by omega
    have := Nat.mul_le_mul_right B this
    have e : 2 ^ 127 * n * B = 2 ^ 127 * (B * n) := by ring
    rw [Nat.add_mul] at this
    omega
  have d1 : P / 2 ^ 64 / 2 ^ 63 = P / 2 ^ 127 := by rw [Nat.div_div_eq_div_mul, ← pow_add]
  unfold Good at good
  rw [← hr, ← hn] at good
  rcases good with g | ⟨g1, g2⟩
  · -- exact
    have phi : P ≤ 2 ^ 127 * n + (2 ^ 61 - 1) := by
      by_contra hlt
      have : 2 ^ 127 * n + (2 ^ 61 - 1) + 1 ≤ P := by omega
      have := Nat.mul_le_mul_right B this
      have e : (2 ^ 127 * n + (2 ^ 61 - 1) + 1) * B = 2 ^ 127 * (B * n) + (2 ^ 61 - 1) * B + B := by ring
      omega
    have q1 : P / 2 ^ 127 = n := by omega
    have q2 : P / 2 ^ 64 % 2 ^ 63 = 0 := by omega
    rw [d1, q1]
    rw [if_pos (.inl q2), if_pos (.inl g)]
  · have phi : P < 2 ^ 127 * n + 2 ^ 127 := by
      by_contra hge
      have : 2 ^ 127 * n + 2 ^ 127 ≤ P := by omega
      have := Nat.mul_le_mul_right B this
      have e : (2 ^ 127 * n + 2 ^ 127) * B = 2 ^ 127 * (B * n) + 2 ^ 127 * B := by ring
      have e2 : 2 ^ 127 * (B * n + r) = 2 ^ 127 * (B * n) + 2 ^ 127 * r := by ring
      omega
    have q1 : P / 2 ^ 127 = n := by omega
    rw [d1, q1]
    rcases g2 with g2 | g2
    · simp [g2]
    · have q2 : P / 2 ^ 64 % 2 ^ 63 ≠ 0 := by
        have : 2 ^ 127 * n + 2 ^ 64 ≤ P := by
          by_contra hlt
          have : P + 1 ≤ 2 ^ 127 * n + 2 ^ 64 := by omega
          have := Nat.mul_le_mul_right B this
          have e : (2 ^ 127 * n + 2 ^ 64) * B = 2 ^ 127 * (B * n) + 2 ^ 64 * B := by ring
          have e2 : 2 ^ 127 * (B * n + r) = 2 ^ 127 * (B * n) + 2 ^ 127 * r := by ring
          rw [Nat.add_mul] at this
          omega
        omega
      have hr0 : r ≠ 0 := by
        rintro rfl; omega
      simp only [q2, hr0, false_or]

/-- The decisions of `choose`, on natural numbers. -/
def chooseNat (vb vbl vbr out : Nat) : Nat × Bool :=
  let s := vb / 4
  let u := 10 * (s / 10)
  let upin := decide (vbl + out ≤ 4 * u)
  let wpin := decide (4 * (u + 10) + out ≤ vbr)
  if 100 ≤ s ∧ upin ≠ wpin then (if upin then u else u + 10, false)
  else
    let uin := decide (vbl + out ≤ 4 * s)
    let win := decide (4 * (s + 1) + out ≤ vbr)
    if uin ≠ win then (if uin then s else s + 1, true)
    else (if vb < 4 * s + 2 ∨ vb = 4 * s + 2 ∧ s % 2 = 0 then s else s + 1, true)

theorem sle_toNat {x y : BitVec 64} (hx : x.toNat < 2 ^ 63) (hy : y.toNat < 2 ^ 63) :
    x.sle y = decide (x.toNat ≤ y.toNat) := by
  rw [BitVec.sle_eq_decide, BitVec.toInt_eq_toNat_of_lt (by omega), BitVec.toInt_eq_toNat_of_lt (by omega)]
  simp

theorem sshiftRight2 {x : BitVec 64} (hx : x.toNat < 2 ^ 63) : (x.sshiftRight 2).toNat = x.toNat / 4 := by
  rw [BitVec.sshiftRight_eq_of_msb_false (by rw [BitVec.msb_eq_false_iff_two_mul_lt]; omega),
    BitVec.toNat_ushiftRight, Nat.shiftRight_eq_div_pow]

theorem tenth {s : Nat} (h : s < 2 ^ 58) : s * (115292150460684698 * 16) / 2 ^ 64 = s / 10 := by omega

theorem choose_toNat {vb vbl vbr out : BitVec 64} (h : vb.toNat < 2 ^ 59) (hl : vbl.toNat < 2 ^ 59)
    (hr : vbr.toNat < 2 ^ 59) (ho : out.toNat < 2) :
    ((choose vb vbl vbr out).1.toNat, (choose vb vbl vbr out).2) =
      chooseNat vb.toNat vbl.toNat vbr.toNat out.toNat := by
  obtain ⟨s, hs⟩ : ∃ s, s = vb.sshiftRight 2 := ⟨_, rfl⟩
  have es : s.toNat = vb.toNat / 4 := by rw [hs]; exact sshiftRight2 (by omega)
  have slt : s.toNat < 2 ^ 57 := by omega
  obtain ⟨u, hu⟩ : ∃ u, u = 10#64 * multiplyHigh s (115292150460684698#64 <<< 4) := ⟨_, rfl⟩
  have eu : u.toNat = 10 * (s.toNat / 10) := by
    have hK : (115292150460684698#64 <<< 4).toNat = 115292150460684698 * 16 := by decide
    have e1 : (multiplyHigh s (115292150460684698#64 <<< 4)).toNat = s.toNat / 10 := by
      rw [multiplyHigh_toNat (by omega) (by rw [hK]; omega), hK, tenth (by omega)]
    rw [hu, BitVec.toNat_mul, e1]
    simp only [BitVec.toNat_ofNat]
    omega
  have shl2 : ∀ x : BitVec 64, x.toNat < 2 ^ 61 → (x <<< 2).toNat = 4 * x.toNat := by
    intro x hx
    rw [BitVec.toNat_shiftLeft, Nat.shiftLeft_eq]; omega
  have ed : (u + 10#64).toNat = u.toNat + 10 := by
    rw [BitVec.toNat_add]; simp only [BitVec.toNat_ofNat]; omega
  have et : (s + 1#64).toNat = s.toNat + 1 := by
    rw [BitVec.toNat_add]; simp only [BitVec.toNat_ofNat]; omega
  have e1 : (vbl + out).toNat = vbl.toNat + out.toNat := by rw [BitVec.toNat_add]; omega
  have e2 : (((u + 10#64) <<< 2) + out).toNat = 4 * (u.toNat + 10) + out.toNat := by
    rw [BitVec.toNat_add, shl2 _ (by omega), ed]; omega
  have e3 : (((s + 1#64) <<< 2) + out).toNat = 4 * (s.toNat + 1) + out.toNat := by
    rw [BitVec.toNat_add, shl2 _ (by omega), et]; omega
  have e4 : ((s + (s + 1#64)) <<< 1).toNat = 4 * s.toNat + 2 := by
    rw [BitVec.toNat_shiftLeft, Nat.shiftLeft_eq, BitVec.toNat_add, et]; omega
  have upin : (vbl + out).sle (u <<< 2) = decide (vbl.toNat + out.toNat ≤ 4 * u.toNat) := by
    rw [sle_toNat (by omega) (by rw [shl2 _ (by omega)]; omega), e1, shl2 _ (by omega)]
  have wpin : (((u + 10#64) <<< 2) + out).sle vbr = decide (4 * (u.toNat + 10) + out.toNat ≤ vbr.toNat) := by
    rw [sle_toNat (by omega) (by omega), e2]
  have uin : (vbl + out).sle (s <<< 2) = decide (vbl.toNat + out.toNat ≤ 4 * s.toNat) := by
    rw [sle_toNat (by omega) (by rw [shl2 _ (by omega)]; omega), e1, shl2 _ (by omega)]
  have win : (((s + 1#64) <<< 2) + out).sle vbr = decide (4 * (s.toNat + 1) + out.toNat ≤ vbr.toNat) := by
    rw [sle_toNat (by omega) (by omega), e3]
  have h100 : (100#64).sle s = decide (100 ≤ s.toNat) := by
    rw [sle_toNat (by decide) (by omega)]; rfl
  have cmp : ((vb - ((s + (s + 1#64)) <<< 1)).slt 0#64 ||
      (vb - ((s + (s + 1#64)) <<< 1)) == 0#64 && (s &&& 1#64) == 0#64) =
      decide (vb.toNat < 4 * s.toNat + 2 ∨ vb.toNat = 4 * s.toNat + 2 ∧ s.toNat % 2 = 0) := by
    have c1 : (vb - ((s + (s + 1#64)) <<< 1)).slt 0#64 = decide (vb.toNat < 4 * s.toNat + 2) := by
      rw [BitVec.slt_eq_decide]
      apply decide_eq_decide.2
      have hz : (0#64).toInt = 0 := rfl
      rw [hz, BitVec.toInt_neg_iff, BitVec.toNat_sub, e4]
      omega
    have c2 : ((vb - ((s + (s + 1#64)) <<< 1)) == 0#64) = decide (vb.toNat = 4 * s.toNat + 2) := by
      rw [Bool.eq_iff_iff, beq_iff_eq, decide_eq_true_eq, ← BitVec.toNat_inj, BitVec.toNat_sub, e4]
      simp only [BitVec.toNat_ofNat]
      omega
    have c3 : ((s &&& 1#64) == 0#64) = decide (s.toNat % 2 = 0) := by
      rw [Bool.eq_iff_iff, beq_iff_eq, decide_eq_true_eq, ← BitVec.toNat_inj, BitVec.toNat_and]
      have := Nat.and_one_is_mod s.toNat
      simp only [BitVec.toNat_ofNat]
      norm_num
    rw [c1, c2, c3]
    simp [Bool.decide_or, Bool.decide_and]
  unfold choose chooseNat
  simp only [← hs, ← hu, upin, wpin, uin, win, h100, cmp, ← es, ← eu]
  generalize decide (vbl.toNat + out.toNat ≤ 4 * u.toNat) = b1
  generalize decide (4 * (u.toNat + 10) + out.toNat ≤ vbr.toNat) = b2
  generalize decide (vbl.toNat + out.toNat ≤ 4 * s.toNat) = b3
  generalize decide (4 * (s.toNat + 1) + out.toNat ≤ vbr.toNat) = b4
  by_cases hc : 100 ≤ s.toNat
  · cases b1 <;> cases b2 <;> cases b3 <;> cases b4 <;> simp [hc, ed, et, apply_ite]
  · cases b3 <;> cases b4 <;> simp [hc, et, apply_ite]

end FastPrintf.DoubleToDecimal
