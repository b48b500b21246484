/-
The decimal that `DoubleToDecimal` computes is the one prescribed by `Spec.JavaDecimal`.
-/
import Verif.Proofs.Choice

namespace FastPrintf.DoubleToDecimal

open MathUtils Farey Spec

theorem ratio_eq (q k : Int) : (ratioA q k : ℚ) / ratioB q k = 2 ^ q / 10 ^ k := by
  have key : ∀ (b : Nat) (_ : (b : ℚ) ≠ 0) (i : Int), (b : ℚ) ^ i = (b ^ i.toNat : Nat) / (b ^ (-i).toNat : Nat) := by
    intro b hb i
    rcases Int.le_total 0 i with h | h
    · obtain ⟨n, rfl⟩ := Int.eq_ofNat_of_zero_le h
      simp
    · obtain ⟨n, hn⟩ := Int.eq_ofNat_of_zero_le (Int.neg_nonneg_of_nonpos h)
      obtain rfl : i = -(n : Int) := by omega
      simp
  have h2 := key 2 (by norm_num) q
  have h10 := key 10 (by norm_num) k
  simp only [Nat.cast_ofNat] at h2 h10
  rw [h2, h10]
  unfold ratioA ratioB
  have p1 : ((2 ^ (-q).toNat : Nat) : ℚ) ≠ 0 := by positivity
  have p2 : ((10 ^ k.toNat : Nat) : ℚ) ≠ 0 := by positivity
  have p3 : ((10 ^ (-k).toNat : Nat) : ℚ) ≠ 0 := by positivity
  rw [Nat.cast_mul, Nat.cast_mul]
  field_simp

theorem In.scale {c : Prop} {L U e t : ℚ} (ht : 0 < t) : In c (L * t) (U * t) (e * t) ↔ In c L U e := by
  unfold In
  rw [mul_lt_mul_iff_left₀ ht, mul_lt_mul_iff_left₀ ht, mul_left_inj' ht.ne', mul_left_inj' ht.ne']

/-- Number of digits. -/
theorem decLength_ok {f : BitVec 64} (h0 : 0 < f.toNat) (h1 : f.toNat < 10 ^ 17) :
    ∃ n : Nat, decLength f = .ok (n : Int) ∧ 1 ≤ n ∧ 10 ^ (n - 1) ≤ f.toNat ∧ f.toNat < 10 ^ n := by
  have table : ∀ b : Fin 58, b.val ≠ 0 → ∃ len : Fin 18, flog10pow2 (b.val : Int) = (len.val : Int) ∧
      pow10 (len.val : Int) = .ok (10 ^ len.val) ∧ 10 ^ (len.val - 1) ≤ 2 ^ (b.val - 1) ∧
      2 ^ b.val ≤ 10 ^ (len.val + 1) := by decide +kernel
  have hb1 : bitLength f ≠ 0 := by unfold bitLength; rw [if_neg (by omega)]; omega
  have hlo : 2 ^ (bitLength f - 1) ≤ f.toNat := by
    unfold bitLength; rw [if_neg (by omega)]
    exact Nat.log2_self_le (by omega)
  have hhi : f.toNat < 2 ^ bitLength f := by
    unfold bitLength; rw [if_neg (by omega)]
    exact Nat.lt_log2_self
  have hb2 : bitLength f < 58 := by
    by_contra hge
    have : 2 ^ 57 ≤ 2 ^ (bitLength f - 1) := Nat.pow_le_pow_right (by omega) (by omega)
    omega
  obtain ⟨len, t1, t2, t3, t4⟩ := table ⟨bitLength f, hb2⟩ hb1
  simp only at t1 t3 t4
  unfold decLength
  simp only [t1, t2, bind_ok, pure_eq_ok]
  have hi : f.toInt = f.toNat := BitVec.toInt_eq_toNat_of_lt (by omega)
  rw [hi]
  by_cases hc : 10 ^ len.val ≤ f.toNat
  · refine ⟨len.val + 1, ?_, by omega, by simpa using hc, by omega⟩
    rw [if_pos (by exact_mod_cast hc)]; rfl
  · have hl1 : len.val ≠ 0 := by
      intro hz
      rw [hz] at hc; omega
    refine ⟨len.val, ?_, by omega, by omega, by omega⟩
    rw [if_neg (by exact_mod_cast hc)]

theorem chooseNat_le (vb vbl vbr out : Nat) : (chooseNat vb vbl vbr out).1 ≤ vb / 4 + 10 := by
  unfold chooseNat
  dsimp only
  split_ifs <;> simp only <;> omega

/-- `f * 10^e` with `n` digits, as handed to `fd.set(f, e, n)`. -/
structure IsDec (r : Res Split) (P : ℚ → Prop) (E : Int → Prop) : Prop where
  out : ∃ (f : BitVec 64) (e : Int) (n : Nat), r = .ok (.dec f e n) ∧ 0 < f.toNat ∧ f.toNat < 10 ^ 17 ∧
    1 ≤ n ∧ 10 ^ (n - 1) ≤ f.toNat ∧ f.toNat < 10 ^ n ∧ -325 ≤ e ∧ e ≤ 292 ∧
    P (f.toNat * 10 ^ e) ∧ E e

theorem gTable_length : gTable.length = 617 := by decide +kernel

theorem Params.kmax {q k : Int} {h g1' g0' : Nat} (p : Params q k h g1' g0') : k ≤ 292 := by
  have he := p.entry
  have kmin := p.kmin
  have hlt : (k + 324).toNat < gTable.length := by
    by_contra hge
    rw [List.getElem?_eq_none (Nat.le_of_not_lt hge)] at he
    simp at he
  rw [gTable_length] at hlt
  omega

/-- No wrapping inside the table. -/
theorem gIndex_eq {k : Int} (kmin : -324 ≤ k) {x : Nat × Nat} (he : gTable[(k + 324).toNat]? = some x) :
    0 ≤ gIndex k ∧ (gIndex k).toNat / 2 = (k + 324).toNat := by
  have := (List.getElem?_eq_some_iff.mp he).1
  rw [gTable_length] at this
  have e1 : wrap32 (k - K_MIN) = k + 324 := by
    unfold wrap32 K_MIN
    rw [Int.bmod_eq_of_le (by omega) (by omega)]
    omega
  have e2 : gIndex k = 2 * (k + 324) := by
    unfold gIndex
    rw [e1]
    exact Int.bmod_eq_of_le (by omega) (by omega)
  omega

theorem Params.g1_ok {q k : Int} {h g1' g0' : Nat} (p : Params q k h g1' g0') :
    g1 k = .ok (BitVec.ofNat 64 g1') := by
  have he := p.entry
  have kmin := p.kmin
  obtain ⟨h1, h2⟩ := gIndex_eq kmin he
  unfold g1
  rw [if_neg (by omega), h2, he]

theorem Params.g0_ok {q k : Int} {h g1' g0' : Nat} (p : Params q k h g1' g0') :
    g0 k = .ok (BitVec.ofNat 64 g0') := by
  have he := p.entry
  have kmin := p.kmin
  obtain ⟨h1, h2⟩ := gIndex_eq kmin he
  unfold g0
  rw [if_neg (by omega), h2, he]

theorem toDecimal'_eq {q k dk : Int} {c G1 G0 : BitVec 64} (hk : (if (c != C_MIN || q == Q_MIN) then flog10pow2 q
      else flog10threeQuartersPow2 q) = k) (h1 : g1 k = .ok G1) (h0 : g0 k = .ok G0) :
    toDecimal' q c dk =
      let h := q + flog2pow10 (-k) + 2
      let cbl := if (c != C_MIN || q == Q_MIN) then c <<< 2 - 2#64 else c <<< 2 - 1#64
      let r := choose (rop G1 G0 (shl (c <<< 2) h)) (rop G1 G0 (shl cbl h))
        (rop G1 G0 (shl (c <<< 2 + 2#64) h)) (c &&& 1#64)
      toChars r.1 (if r.2 then k + dk else k) := by
  unfold toDecimal'
  dsimp only
  rw [hk, h1, h0, bind_ok, bind_ok]

theorem C_MIN_toNat : C_MIN.toNat = 2 ^ 52 := by decide

theorem toDecimal'_aux {q k : Int} {h g1' g0' : Nat} (p : Params q k h g1' g0') {c : BitVec 64}
    {n A B : Nat} (hn : c.toNat = n) (eA : ratioA q k = A) (eB : ratioB q k = B)
    (can : Canonical n q) (hk : (if (c != C_MIN || q == Q_MIN) then flog10pow2 q
      else flog10threeQuartersPow2 q) = k) {l : Nat}
    (hl : l + lowQuarters n q = 4 * n)
    (good : ∀ m ∈ [4 * n, l, 4 * n + 2], Good (A) (B) m)
    (hAB : 3 * A < 40 * B)
    (hw1 : 4 * B ≤ (4 * n + 2 - l) * A)
    (hw2 : (4 * n + 2 - l) * A < 40 * B)
    (hw3 : n % 2 = 1 → (4 * n + 2 - l) * A = 4 * B →
      A = B ∧ l = 4 * n - 2)
    (hsm : n * A < 100 * B → 40 * B ≤ l * A)
    (hbig : n * A < 10 ^ 16 * 9 * B + 10 ^ 16 / 10 * B) {E : Int → Prop} (hE : E k) :
    IsDec (toDecimal' q c 0)
      (Chosen (RoundsTo (n * 2 ^ q) (n % 2 = 0)) (n * 2 ^ q)) E := by
  have hn53 := can.lt
  have hn0 := can.pos
  have hlq : lowQuarters n q = 1 ∨ lowQuarters n q = 2 := by unfold lowQuarters; split <;> omega
  have hB : 0 < B := eB ▸ ratioB_pos q k
  have hA : 0 < A := eA ▸ ratioA_pos q k
  -- the table entries
  have hG1 := Params.g1_ok p
  have hG0 := Params.g0_ok p
  have eG1 : (BitVec.ofNat 64 g1').toNat = g1' := by
    rw [BitVec.toNat_ofNat]; exact Nat.mod_eq_of_lt (by have := p.g1lt; omega)
  have eG0 : (BitVec.ofNat 64 g0').toNat = g0' := by
    rw [BitVec.toNat_ofNat]; exact Nat.mod_eq_of_lt (by have := p.g0lt; omega)
  -- the three multipliers
  have ecb : (c <<< 2).toNat = 4 * n := by
    rw [BitVec.toNat_shiftLeft, Nat.shiftLeft_eq, hn]; omega
  have ecbr : (c <<< 2 + 2#64).toNat = 4 * n + 2 := by
    rw [BitVec.toNat_add, ecb]; simp only [BitVec.toNat_ofNat]; omega
  have hreg : (c != C_MIN || q == Q_MIN) = decide (lowQuarters n q = 2) := by
    have e1 : (c != C_MIN) = !decide (n = 2 ^ 52) := by
      rw [Bool.eq_iff_iff]
      simp only [bne_iff_ne, ne_eq, Bool.not_eq_true', decide_eq_false_iff_not, ← BitVec.toNat_inj,
        C_MIN_toNat, hn]
    have e2 : (q == Q_MIN) = decide (q = -1074) := rfl
    rw [e1, e2]
    unfold lowQuarters
    by_cases h1 : n = 2 ^ 52 <;> by_cases h2 : q = -1074 <;> simp [h1, h2]
  have ecbl : (if (c != C_MIN || q == Q_MIN) then c <<< 2 - 2#64 else c <<< 2 - 1#64).toNat = l := by
    rw [hreg]
    rcases hlq with h | h
    · rw [h] at hl ⊢
      rw [if_neg (by decide), BitVec.toNat_sub, ecb]; simp only [BitVec.toNat_ofNat]; omega
    · rw [h] at hl ⊢
      rw [if_pos (by decide), BitVec.toNat_sub, ecb]; simp only [BitVec.toNat_ofNat]; omega
  have eshl : ∀ (x : BitVec 64) (m : Nat), x.toNat = m → m ≤ 2 ^ 55 + 2 →
      (shl x (q + flog2pow10 (-k) + 2)).toNat = m * 2 ^ h := by
    intro x m hx hm
    have h5 : 2 ^ h ≤ 2 ^ 5 := Nat.pow_le_pow_right (by omega) p.h5
    unfold shl
    rw [p.shift, BitVec.toNat_shiftLeft, Nat.shiftLeft_eq, hx]
    have : ((h : Int) % 64).toNat = h := by have := p.h5; omega
    rw [this]
    apply Nat.mod_eq_of_lt
    have : m * 2 ^ h ≤ (2 ^ 55 + 2) * 2 ^ 5 := Nat.mul_le_mul hm h5
    omega
  have erop : ∀ (x : BitVec 64) (m : Nat), x.toNat = m → m ≤ 2 ^ 55 + 2 → m ∈ [4 * n, l, 4 * n + 2] →
      (rop (BitVec.ofNat 64 g1') (BitVec.ofNat 64 g0') (shl x (q + flog2pow10 (-k) + 2))).toNat =
        rod (m * A) B := by
    intro x m hx hm hmem
    rw [← eA, ← eB]
    exact rop_eq_rod p hm (by rw [eA, eB]; exact good m hmem) eG1 eG0 (eshl x m hx hm)
  have r1 := erop _ _ ecb (by omega) (by simp)
  have r2 := erop _ _ ecbl (by omega) (by simp)
  have r3 := erop _ _ ecbr (by omega) (by simp)
  have rlt : ∀ m, m ≤ 2 ^ 55 + 2 → rod (m * A) B < 2 ^ 59 := by
    intro m hm
    refine Nat.lt_of_le_of_lt rod_le_succ ?_
    have h1 : m * A ≤ (2 ^ 55 + 2) * A := Nat.mul_le_mul_right _ hm
    have h2 : m * A / B < (2 ^ 55 + 2) * 14 + 1 := by
      rw [Nat.div_lt_iff_lt_mul hB]
      have : ((2 ^ 55 + 2) * 14 + 1) * B = (2 ^ 55 + 2) * (14 * B) + B := by ring
      have h3 : (2 ^ 55 + 2) * A ≤ (2 ^ 55 + 2) * (14 * B) := Nat.mul_le_mul_left _ (by omega)
      omega
    omega
  have hout : (c &&& 1#64).toNat = n % 2 := by
    rw [BitVec.toNat_and, hn]
    exact Nat.and_one_is_mod n
  have hch := choose_toNat (vb := _) (vbl := _) (vbr := _) (out := c &&& 1#64)
    (by rw [r1]; exact rlt _ (by omega)) (by rw [r2]; exact rlt _ (by omega))
    (by rw [r3]; exact rlt _ (by omega)) (by rw [hout]; omega)
  rw [r1, r2, r3, hout] at hch
  have chosen := chooseNat_chosen (A := A) (B := B) (c := n) (l := l) hA hB (by omega) hw1 hw2 hw3 hsm
  have hle := chooseNat_le (rod (4 * n * A) B) (rod (l * A) B) (rod ((4 * n + 2) * A) B) (n % 2)
  rw [← hch] at chosen hle
  simp only at chosen hle
  rw [toDecimal'_eq hk hG1 hG0]
  dsimp only
  generalize hres : choose (rop (BitVec.ofNat 64 g1') (BitVec.ofNat 64 g0') (shl (c <<< 2) (q + flog2pow10 (-k) + 2)))
    (rop (BitVec.ofNat 64 g1') (BitVec.ofNat 64 g0')
      (shl (if (c != C_MIN || q == Q_MIN) = true then c <<< 2 - 2#64 else c <<< 2 - 1#64) (q + flog2pow10 (-k) + 2)))
    (rop (BitVec.ofNat 64 g1') (BitVec.ofNat 64 g0') (shl (c <<< 2 + 2#64) (q + flog2pow10 (-k) + 2)))
    (c &&& 1#64) = res at *
  have hek : (if res.2 = true then k + 0 else k) = k := by simp
  rw [hek]
  have h10 : (0 : ℚ) < 10 ^ k := by positivity
  have hα : (A : ℚ) / B = 2 ^ q / 10 ^ k := by rw [← eA, ← eB]; exact ratio_eq q k
  -- the interval in units of `10^k`
  have final : Chosen (RoundsTo (n * 2 ^ q) (n % 2 = 0)) (n * 2 ^ q) (res.1.toNat * 10 ^ k) := by
    have hx : ((4 * n : Nat) : ℚ) * ((A : ℚ) / B / 4) * 10 ^ k = n * 2 ^ q := by
      rw [hα]; push_cast; field_simp
    rw [← hx]
    refine Chosen.scale k (Chosen.congr (fun e => ?_) chosen)
    rw [hx, roundsTo_iff can]
    have hl' : (4 * n : ℚ) - lowQuarters n q = l := by
      have : ((l + lowQuarters n q : Nat) : ℚ) = ((4 * n : Nat) : ℚ) := by rw [hl]
      push_cast at this; linarith
    rw [hl']
    have a1 : (l : ℚ) * (2 ^ q / 4) = (l : ℚ) * ((A : ℚ) / B / 4) * 10 ^ k := by rw [hα]; field_simp
    have a2 : (4 * n + 2 : ℚ) * (2 ^ q / 4) = ((4 * n + 2 : Nat) : ℚ) * ((A : ℚ) / B / 4) * 10 ^ k := by
      rw [hα]; push_cast; field_simp
    rw [a1, a2]
    exact (In.scale h10).symm
  have hf0 : 0 < res.1.toNat := by
    rcases Nat.eq_zero_or_pos res.1.toNat with h | h
    · exfalso
      obtain ⟨m, -, -, ⟨s, i, a1, a2, a3⟩, -⟩ := final
      rw [h] at a3
      have s0 : 0 < s := lt_of_lt_of_le (by positivity) a1
      have : (0 : ℚ) < s * 10 ^ i := by positivity
      rw [← a3] at this
      simp at this
    · exact h
  have hf17 : res.1.toNat < 10 ^ 17 := by
    rw [rod_div4, show 4 * n * A = n * A * 4 by ring, Nat.mul_div_mul_right _ _ (by omega)] at hle
    have : n * A / B < 10 ^ 16 * 9 + 10 ^ 16 / 10 := by
      rw [Nat.div_lt_iff_lt_mul hB, Nat.add_mul]; exact hbig
    omega
  obtain ⟨d, d1, d2, d3, d4⟩ := decLength_ok hf0 hf17
  have kmin := p.kmin
  have kmax := Params.kmax p
  refine ⟨res.1, k, d, ?_, hf0, hf17, d2, d3, d4, by omega, kmax, final, hE⟩
  unfold toChars
  rw [d1]; rfl

/-- The place of the last digit: the greatest power of ten up to the distance of the numbers that round
to `c * 2^q`. -/
def LastUnit (c : Nat) (q e : Int) : Prop :=
  (10 : ℚ) ^ e ≤ (if c = 2 ^ 52 ∧ q ≠ -1074 then 3 / 4 else 1) * 2 ^ q ∧
    (if c = 2 ^ 52 ∧ q ≠ -1074 then 3 / 4 else 1) * (2 : ℚ) ^ q < 10 ^ (e + 1)

theorem lastUnit_of {c : Nat} {q k : Int} {x y : Nat} (hy : 0 < y)
    (hc : (if c = 2 ^ 52 ∧ q ≠ -1074 then 3 / 4 else 1 : ℚ) = x / y) (h1 : y * ratioB q k ≤ x * ratioA q k)
    (h2 : x * ratioA q k < 10 * y * ratioB q k) : LastUnit c q k := by
  have hB : (0 : ℚ) < ratioB q k := by exact_mod_cast ratioB_pos q k
  have hy' : (0 : ℚ) < y := by exact_mod_cast hy
  have h10 : (0 : ℚ) < 10 ^ k := by positivity
  have hα := ratio_eq q k
  have e2 : (2 : ℚ) ^ q = (ratioA q k : ℚ) / ratioB q k * 10 ^ k := by rw [hα]; field_simp
  have h1' : (y : ℚ) * ratioB q k ≤ x * ratioA q k := by exact_mod_cast h1
  have h2' : (x : ℚ) * ratioA q k < 10 * y * ratioB q k := by exact_mod_cast h2
  unfold LastUnit
  rw [hc, e2, zpow_add₀ (by norm_num), zpow_one, show (x : ℚ) / y * ((ratioA q k : ℚ) / ratioB q k * 10 ^ k) =
    (x * ratioA q k) / (y * ratioB q k) * 10 ^ k by field_simp]
  constructor
  · have : (1 : ℚ) ≤ (x * ratioA q k) / (y * ratioB q k) := by rw [le_div_iff₀ (by positivity)]; linarith
    nlinarith
  · have : (x * ratioA q k : ℚ) / (y * ratioB q k) < 10 := by rw [div_lt_iff₀ (by positivity)]; linarith
    nlinarith

/-- `toDecimal(q, c, 0, fd)` on a canonical magnitude other than the two smallest. -/
theorem toDecimal'_ok {q : Int} {c : BitVec 64} (can : Canonical c.toNat q) (hq : q ≤ 971)
    (h3 : 3 ≤ c.toNat) :
    IsDec (toDecimal' q c 0)
      (Chosen (RoundsTo (c.toNat * 2 ^ q) (c.toNat % 2 = 0)) (c.toNat * 2 ^ q)) (LastUnit c.toNat q) := by
  obtain ⟨reg, irr⟩ := exponents can.min hq
  have hlt := can.lt
  have hcm : c = C_MIN ↔ c.toNat = 2 ^ 52 := by
    rw [← BitVec.toNat_inj, C_MIN_toNat]
  by_cases hir : c.toNat = 2 ^ 52 ∧ q ≠ -1074
  · obtain ⟨h, g1', g0', p⟩ := irr.params
    have hlq : lowQuarters c.toNat q = 1 := by unfold lowQuarters; rw [if_pos hir]
    have ge := irr.ge
    have lt := irr.lt
    have e1 := hir.1
    have hB := ratioB_pos q (flog10threeQuartersPow2 q)
    refine toDecimal'_aux p rfl rfl rfl can ?_ (l := 4 * c.toNat - 1) (by omega) ?_ ?_ ?_ ?_ ?_ ?_ ?_
      (lastUnit_of (x := 3) (y := 4) (by omega) (by rw [if_pos hir]; norm_num) (by omega) (by omega))
    · rw [if_neg]
      rw [hcm.2 e1]
      have : ¬ q = Q_MIN := hir.2
      simp [this]
    · rw [e1]
      intro m hm
      exact irr.good m hm
    · exact lt
    · rw [e1]
      have : 4 * 2 ^ 52 + 2 - (4 * 2 ^ 52 - 1) = 3 := by norm_num
      rw [this]; exact ge
    · rw [e1]
      have : 4 * 2 ^ 52 + 2 - (4 * 2 ^ 52 - 1) = 3 := by norm_num
      rw [this]; exact lt
    · rw [e1]; intro h; omega
    · rw [e1]
      intro h
      exfalso
      have : 2 ^ 52 * ratioB q (flog10threeQuartersPow2 q) ≤ 2 ^ 52 * ratioA q (flog10threeQuartersPow2 q) :=
        Nat.mul_le_mul_left _ (by omega)
      omega
    · rw [e1]
      have : 2 ^ 52 * (3 * ratioA q (flog10threeQuartersPow2 q)) <
          2 ^ 52 * (40 * ratioB q (flog10threeQuartersPow2 q)) := Nat.mul_lt_mul_of_pos_left lt (by norm_num)
      omega
  · obtain ⟨h, g1', g0', p⟩ := reg.params
    have hlq : lowQuarters c.toNat q = 2 := by unfold lowQuarters; rw [if_neg hir]
    have ge := reg.ge
    have lt := reg.lt
    have hB := ratioB_pos q (flog10pow2 q)
    have hw : 4 * c.toNat + 2 - (4 * c.toNat - 2) = 4 := by omega
    refine toDecimal'_aux p rfl rfl rfl can ?_ (l := 4 * c.toNat - 2) (by omega) ?_ ?_ ?_ ?_ ?_ ?_ ?_
      (lastUnit_of (x := 1) (y := 1) (by omega) (by rw [if_neg hir]; norm_num) (by omega) (by omega))
    · rw [if_pos]
      by_cases h1 : c = C_MIN
      · have : q = Q_MIN := by
          by_contra hne; exact hir ⟨hcm.1 h1, hne⟩
        simp [this]
      · simp [h1]
    · intro m hm
      have hm' : m = 2 * (2 * c.toNat) ∨ m = 2 * (2 * c.toNat - 1) ∨ m = 2 * (2 * c.toNat + 1) := by
        simp only [List.mem_cons, List.not_mem_nil, or_false] at hm
        omega
      rcases hm' with rfl | rfl | rfl <;> exact reg.good _ (by omega)
    · omega
    · rw [hw]; omega
    · rw [hw]; omega
    · rw [hw]
      intro _ h
      refine ⟨by omega, rfl⟩
    · -- fewer than three digits: only subnormal numbers
      intro hlt100
      have hc100 : c.toNat < 100 := by
        by_contra hge
        have h1 : 100 * ratioB q (flog10pow2 q) ≤ c.toNat * ratioB q (flog10pow2 q) :=
          Nat.mul_le_mul_right _ (by omega)
        have h2 := Nat.mul_le_mul_left c.toNat ge
        omega
      have hq1074 : q = -1074 := by
        rcases can.normal with h | h
        · exact h
        · omega
      have h4 : 4 * ratioB q (flog10pow2 q) ≤ ratioA q (flog10pow2 q) := by
        rw [hq1074]; decide +kernel
      have : 10 * ratioA q (flog10pow2 q) ≤ (4 * c.toNat - 2) * ratioA q (flog10pow2 q) :=
        Nat.mul_le_mul_right _ (by omega)
      omega
    · have h1 : c.toNat * ratioA q (flog10pow2 q) ≤ c.toNat * (10 * ratioB q (flog10pow2 q)) :=
        Nat.mul_le_mul_left _ lt.le
      have h2 : c.toNat * (10 * ratioB q (flog10pow2 q)) ≤ 2 ^ 53 * (10 * ratioB q (flog10pow2 q)) :=
        Nat.mul_le_mul_right _ (by omega)
      omega

/-- An integer whose neighbours are out of reach stands for itself. -/
theorem chosen_integer {R : ℚ → Prop} {f : Nat} (hf : 0 < f) (hR : R f) (near : ∀ d, R d → |d - f| < 1) :
    Chosen R f f := by
  obtain ⟨j, hj⟩ : ∃ j, j = Nat.log 10 f := ⟨_, rfl⟩
  have j1 : 10 ^ j ≤ f := by rw [hj]; exact Nat.pow_log_le_self _ (by omega)
  have j2 : f < 10 ^ (j + 1) := by rw [hj]; exact Nat.lt_pow_succ_log_self (by omega) _
  have hl : HasLength (j + 1) (f : ℚ) := hasLength_nat (by simpa using j1) j2
  obtain ⟨m, hm, hmle⟩ := exists_least (by omega) hR hl
  obtain ⟨⟨hm1, d', hd', s', i', a1, a2, a3⟩, -⟩ := id hm
  have hlm : HasLength m (f : ℚ) := by
    rcases Int.lt_or_le i' 0 with hi | hi
    · -- then `f` is at most a power of ten
      obtain ⟨w, rfl⟩ : ∃ w, m = w + 1 := ⟨m - 1, by omega⟩
      have h1 := zpow_neg_lt hi a2
      rw [← a3] at h1
      have h2 := (abs_lt.1 (near d' hd')).1
      have h3 : (f : ℚ) < ((10 ^ w + 1 : Nat) : ℚ) := by push_cast; linarith
      have h4 : f < 10 ^ w + 1 := by exact_mod_cast h3
      have h5 : j ≤ w := by
        by_contra hgt
        have : 10 ^ (w + 1) ≤ 10 ^ j := Nat.pow_le_pow_right (by omega) (by omega)
        have : 10 ^ (w + 1) = 10 * 10 ^ w := by rw [pow_succ]; ring
        have : 0 < 10 ^ w := by positivity
        omega
      exact hl.mono (by omega) (by omega)
    · rw [zpow_nat hi] at a3
      have h2 := near d' hd'
      rw [a3, abs_lt] at h2
      have h3 : ((s' * 10 ^ i'.toNat : Nat) : ℚ) < ((f + 1 : Nat) : ℚ) := by push_cast at *; linarith
      have h4 : (f : ℚ) < ((s' * 10 ^ i'.toNat + 1 : Nat) : ℚ) := by push_cast at *; linarith
      have h3' : s' * 10 ^ i'.toNat < f + 1 := by exact_mod_cast h3
      have h4' : f < s' * 10 ^ i'.toNat + 1 := by exact_mod_cast h4
      have h5 : f = s' * 10 ^ i'.toNat := by omega
      exact ⟨s', i', a1, a2, by rw [zpow_nat hi, ← h5]⟩
  refine ⟨m, hm, hR, hlm.mono hm1 (le_max_left _ _), ?_⟩
  intro e _ _
  by_cases he : e = f
  · exact .inl he
  · right; left
    rw [sub_self, abs_zero]
    exact abs_pos.2 (sub_ne_zero.2 he)

/-- The integers below `2^53` that are not a multiple of their unit in the last place. -/
theorem chosen_exact {c mq f : Nat} (can : Canonical c (-(mq : Int))) (hm : 0 < mq) (hf : f * 2 ^ mq = c) :
    Chosen (RoundsTo (c * 2 ^ (-(mq : Int))) (c % 2 = 0)) (c * 2 ^ (-(mq : Int))) f := by
  have hp : (0 : ℚ) < 2 ^ mq := by positivity
  have hx : (c : ℚ) * 2 ^ (-(mq : Int)) = f := by
    rw [← hf, zpow_neg, zpow_natCast]; push_cast
    rw [mul_assoc, mul_inv_cancel₀ hp.ne', mul_one]
  have hw : (2 : ℚ) ^ (-(mq : Int)) ≤ 1 / 2 := by
    calc (2 : ℚ) ^ (-(mq : Int)) ≤ 2 ^ (-1 : Int) := zpow_le_zpow_right₀ (by norm_num) (by omega)
      _ = 1 / 2 := by norm_num
  have hw0 : (0 : ℚ) < 2 ^ (-(mq : Int)) := by positivity
  have hlq : (1 : ℚ) ≤ lowQuarters c (-(mq : Int)) ∧ (lowQuarters c (-(mq : Int)) : ℚ) ≤ 2 := by
    unfold lowQuarters; split_ifs <;> norm_num
  have hR : ∀ d, RoundsTo (c * 2 ^ (-(mq : Int))) (c % 2 = 0) d ↔ _ := roundsTo_iff can
  have key : Chosen (RoundsTo (c * 2 ^ (-(mq : Int))) (c % 2 = 0)) (f : ℚ) f := by
    refine chosen_integer ?_ ?_ ?_
    · rcases Nat.eq_zero_or_pos f with h | h
      · rw [h] at hf; have := can.pos; omega
      · exact h
    · rw [hR, ← hx]
      refine ⟨.inl ?_, .inl ?_⟩ <;> nlinarith
    · intro d hd
      rw [hR] at hd
      obtain ⟨h1, h2⟩ := hd.le
      rw [abs_lt, ← hx]
      constructor <;> nlinarith
  rwa [← hx] at key ⊢

theorem dec_one : toDecimal' Q_MIN (10#64 * 1#64) (-1) = .ok (.dec 49#64 (-325) 2) := by decide +kernel
theorem dec_two : toDecimal' Q_MIN (10#64 * 2#64) (-1) = .ok (.dec 99#64 (-325) 2) := by decide +kernel

/-- The two smallest magnitudes. -/
theorem chosen_tiny {c s D : Nat} {q k : Int} (hq : q = -1074) (hk : k = -325)
    (h : (c = 1 ∧ s = 49 ∧ D = 49) ∨ (c = 2 ∧ s = 98 ∧ D = 99)) :
    Chosen (RoundsTo (c * 2 ^ q) (c % 2 = 0)) (c * 2 ^ q) (D * 10 ^ k) := by
  have can : Canonical c q := ⟨by omega, by omega, by omega, .inl hq⟩
  obtain ⟨A, eA⟩ : ∃ A, A = ratioA q k := ⟨_, rfl⟩
  obtain ⟨B, eB⟩ : ∃ B, B = ratioB q k := ⟨_, rfl⟩
  have hB : 0 < B := eB ▸ ratioB_pos _ _
  have hA : 0 < A := eA ▸ ratioA_pos _ _
  have hA' : (0 : ℚ) < A := by exact_mod_cast hA
  have hB' : (0 : ℚ) < B := by exact_mod_cast hB
  have f1 : 494 * B ≤ 10 * A := by rw [eA, eB, hq, hk]; decide +kernel
  have f2 : 100 * A ≤ 4941 * B := by rw [eA, eB, hq, hk]; decide +kernel
  have hα : (A : ℚ) / B = 2 ^ q / 10 ^ k := by rw [eA, eB]; exact ratio_eq _ _
  obtain ⟨β, hβ⟩ : ∃ β : ℚ, β = (A : ℚ) / B / 4 := ⟨_, rfl⟩
  have b1 : (494 : ℚ) / 40 ≤ β := by
    have : (494 : ℚ) * B ≤ 10 * A := by exact_mod_cast f1
    rw [hβ, div_div, div_le_div_iff₀ (by norm_num) (by positivity)]; linarith
  have b2 : β ≤ (4941 : ℚ) / 400 := by
    have : (100 : ℚ) * A ≤ 4941 * B := by exact_mod_cast f2
    rw [hβ, div_div, div_le_div_iff₀ (by positivity) (by norm_num)]; linarith
  have hlq : lowQuarters c q = 2 := by unfold lowQuarters; simp [hq]
  have key : Chosen (In (c % 2 = 0) ((4 * c - 2) * β) ((4 * c + 2) * β)) (4 * c * β) D := by
    have hs : s < 100 := by omega
    refine chosen_small (s := s) ?_ ?_ hs
    · rcases h with ⟨rfl, rfl, rfl⟩ | ⟨rfl, rfl, rfl⟩
      · refine ⟨by norm_num; linarith, by norm_num; linarith, ⟨.inl ?_, .inl ?_⟩, fun _ => .inr (.inl ?_),
          fun h => by omega, .inl rfl⟩ <;> norm_num <;> linarith
      · refine ⟨by norm_num; linarith, by norm_num; linarith, ⟨.inl ?_, .inl ?_⟩, fun h => by omega,
          fun _ => .inr (.inl ?_), .inr rfl⟩ <;> norm_num <;> linarith
    · rcases h with ⟨rfl, rfl, rfl⟩ | ⟨rfl, rfl, rfl⟩ <;> norm_num <;> linarith
  have h10 : (0 : ℚ) < 10 ^ k := by positivity
  have hβ' : β * 10 ^ k = 2 ^ q / 4 := by
    rw [hβ, hα]; field_simp
  have hx : 4 * c * β * 10 ^ k = c * 2 ^ q := by
    rw [mul_assoc, hβ']; ring
  rw [← hx]
  refine Chosen.scale k (Chosen.congr (fun e => ?_) key)
  rw [hx, roundsTo_iff can, hlq, ← hβ', ← mul_assoc, ← mul_assoc, In.scale h10]
  norm_num

theorem tField_toNat (bits : BitVec 64) : (bits &&& T_MASK).toNat = fracBits bits := by
  rw [BitVec.toNat_and, show T_MASK.toNat = 2 ^ 52 - 1 from by decide, Nat.and_two_pow_sub_one_eq_mod]
  rfl

theorem bqField_toNat (bits : BitVec 64) : ((bits >>> 52) &&& 0x7FF#64).toNat = expBits bits := by
  rw [BitVec.toNat_and, BitVec.toNat_ushiftRight, Nat.shiftRight_eq_div_pow,
    show (0x7FF#64).toNat = 2 ^ 11 - 1 from by decide, Nat.and_two_pow_sub_one_eq_mod]
  rfl

theorem whole_of {m f : Nat} {x : ℚ} (hx : x = f) (hlt : f < m) : x < m ∧ x.den = 1 := by
  subst hx; exact ⟨by exact_mod_cast hlt, Rat.den_natCast f⟩

/-- A number below 1 is not an integer. -/
theorem not_whole {x : ℚ} (h0 : 0 < x) (h1 : x < 1) : x.den ≠ 1 := by
  intro h
  have hn : (x.num : ℚ) = x := Rat.coe_int_num_of_den_eq_one h
  rw [← hn] at h0 h1
  have a : 0 < x.num := by exact_mod_cast h0
  have b : x.num < 1 := by exact_mod_cast h1
  omega

theorem sub_whole {c : Nat} (h0 : 0 < c) (h1 : c < 2 ^ 53) : ((c : ℚ) * 2 ^ (-1074 : Int)).den ≠ 1 := by
  have hc : (0 : ℚ) < c := by exact_mod_cast h0
  have hc' : (c : ℚ) < 2 ^ 53 := by exact_mod_cast h1
  refine not_whole (by positivity) ?_
  rw [zpow_neg, ← div_eq_mul_inv, div_lt_one (by positivity)]
  refine lt_trans hc' ?_
  rw [show (2 : ℚ) ^ (1074 : Int) = 2 ^ 1074 from rfl]
  exact pow_lt_pow_right₀ (by norm_num) (by norm_num)

/-- **`DoubleToDecimal` computes the decimal that stands for the double.** -/
theorem toDecimal_ok {bits : BitVec 64} (hf : finite bits) (h0 : magnitude bits ≠ 0) :
    IsDec (toDecimal bits) (JavaDecimal bits) (LastPlace bits) := by
  obtain ⟨can, hq⟩ := double_canonical hf h0
  have hT : fracBits bits < 2 ^ 52 := Nat.mod_lt _ (by norm_num)
  have hE : expBits bits < 2048 := Nat.mod_lt _ (by norm_num)
  have hf' : expBits bits ≠ 2047 := hf
  have et := tField_toNat bits
  have eb := bqField_toNat bits
  unfold JavaDecimal magnitude
  unfold toDecimal
  simp only [eb]
  rw [if_pos (show expBits bits < BQ_MASK by unfold BQ_MASK; omega)]
  have hlast : ∀ {e : Int}, ¬ (magnitude bits < 2 ^ 52 ∧ (magnitude bits).den = 1) → 3 ≤ doubleC bits →
      LastUnit (doubleC bits) (doubleQ bits) e → LastPlace bits e := by
    intro e h1 h2 h3
    unfold LastPlace
    rw [if_neg h1, if_neg (by omega)]
    exact h3
  by_cases he : expBits bits = 0
  · have hC : doubleC bits = fracBits bits := by unfold doubleC; rw [if_pos he]
    have hQ : doubleQ bits = -1074 := by unfold doubleQ; rw [if_pos he]
    rw [if_neg (by simpa using he), hC, hQ]
    rw [hC, hQ] at can
    have hnw : ¬ (magnitude bits < 2 ^ 52 ∧ (magnitude bits).den = 1) := by
      unfold magnitude
      rw [hC, hQ]
      exact fun h => sub_whole can.pos can.lt h.2
    have ht0 : bits &&& T_MASK ≠ 0#64 := by
      intro h
      have := can.pos
      rw [← et, h] at this
      exact absurd this (by decide)
    rw [if_pos ht0]
    generalize hg : bits &&& T_MASK = t at *
    have hslt : t.slt 3#64 = decide (fracBits bits < 3) := by
      rw [BitVec.slt_eq_decide, BitVec.toInt_eq_toNat_of_lt (by omega), et]
      apply decide_eq_decide.2
      have : (3#64).toInt = 3 := by decide
      rw [this]; omega
    rw [hslt]
    have htiny : doubleC bits < 3 → LastPlace bits (-325) := by
      intro h; unfold LastPlace; rw [if_neg hnw, if_pos h]
    by_cases h3 : fracBits bits < 3
    · rw [if_pos (by simpa using h3)]
      have hpos := can.pos
      obtain hc | hc : fracBits bits = 1 ∨ fracBits bits = 2 := by omega
      · have ht : t = 1#64 := by
          rw [← BitVec.toNat_inj, et, hc]; decide
        rw [ht, hc, dec_one]
        exact ⟨49#64, -325, 2, rfl, by decide, by decide, by decide, by decide, by decide, by decide,
          by decide, chosen_tiny rfl rfl (s := 49) (D := 49) (.inl ⟨rfl, rfl, rfl⟩), htiny (by omega)⟩
      · have ht : t = 2#64 := by
          rw [← BitVec.toNat_inj, et, hc]; decide
        rw [ht, hc, dec_two]
        exact ⟨99#64, -325, 2, rfl, by decide, by decide, by decide, by decide, by decide, by decide,
          by decide, chosen_tiny rfl rfl (s := 98) (D := 99) (.inr ⟨rfl, rfl, rfl⟩), htiny (by omega)⟩
    · rw [if_neg (by simpa using h3)]
      have := toDecimal'_ok (q := Q_MIN) (c := t) (by rw [et]; exact can) (by decide) (by omega)
      rw [et] at this
      obtain ⟨f, e, n, a1, a2, a3, a4, a5, a6, a7, a8, a9, a10⟩ := this.out
      refine ⟨f, e, n, a1, a2, a3, a4, a5, a6, a7, a8, a9, hlast hnw (by omega) ?_⟩
      rw [hC, hQ]; exact a10
  · have hC : doubleC bits = 2 ^ 52 + fracBits bits := by unfold doubleC; rw [if_neg he]
    have hQ : doubleQ bits = (expBits bits : Int) - 1075 := by unfold doubleQ; rw [if_neg he]
    rw [if_pos (by simpa using he)]
    obtain ⟨c, hc⟩ : ∃ c, c = C_MIN ||| (bits &&& T_MASK) := ⟨_, rfl⟩
    have ec : c.toNat = doubleC bits := by
      rw [hc, BitVec.toNat_or, et, C_MIN_toNat, hC]
      have := Nat.two_pow_add_eq_or_of_lt hT 1
      rw [mul_one] at this
      exact this.symm
    rw [← hc]
    have hmq : (-Q_MIN + 1 - (expBits bits : Int)) = -doubleQ bits := by rw [hQ]; unfold Q_MIN; omega
    rw [hmq, neg_neg, ← ec]
    rw [← ec] at can
    have hbig : 2 ^ 52 ≤ c.toNat := by omega
    obtain ⟨q, hq'⟩ : ∃ q, q = doubleQ bits := ⟨_, rfl⟩
    rw [← hq'] at can hq ⊢
    by_cases hcond : 0 < -q ∧ -q < 53 ∧ shl (c.sshiftRight (-q % 64).toNat) (-q) = c
    · rw [if_pos hcond]
      obtain ⟨h1, h2, h3⟩ := hcond
      obtain ⟨mq, hmq'⟩ : ∃ mq : Nat, -q = mq := ⟨(-q).toNat, by omega⟩
      have hqq : q = -(mq : Int) := by omega
      have hmod : (-q % 64).toNat = mq := by omega
      have clt := can.lt
      obtain ⟨f, hf''⟩ : ∃ f, f = c.sshiftRight (-q % 64).toNat := ⟨_, rfl⟩
      have ef : f.toNat = c.toNat / 2 ^ mq := by
        rw [hf'', hmod, BitVec.sshiftRight_eq_of_msb_false
          (by rw [BitVec.msb_eq_false_iff_two_mul_lt]; omega), BitVec.toNat_ushiftRight,
          Nat.shiftRight_eq_div_pow]
      have hle : c.toNat / 2 ^ mq * 2 ^ mq ≤ c.toNat := Nat.div_mul_le_self _ _
      have efc : f.toNat * 2 ^ mq = c.toNat := by
        rw [← hf''] at h3
        have h4 : (shl f (-q)).toNat = c.toNat := by rw [h3]
        unfold shl at h4
        rw [hmod, BitVec.toNat_shiftLeft, Nat.shiftLeft_eq, ef, Nat.mod_eq_of_lt (by omega)] at h4
        rw [ef]; exact h4
      have hch := chosen_exact (f := f.toNat) (by rw [← hqq]; exact can) (by omega) efc
      rw [← hqq] at hch
      have f0 : 0 < f.toNat := by
        rcases Nat.eq_zero_or_pos f.toNat with h | h
        · rw [h] at efc; omega
        · exact h
      have f17 : f.toNat < 10 ^ 17 := by
        have : f.toNat * 1 ≤ f.toNat * 2 ^ mq := Nat.mul_le_mul_left _ Nat.one_le_two_pow
        omega
      obtain ⟨d, d1, d2, d3, d4⟩ := decLength_ok f0 f17
      rw [← hf'']
      refine ⟨f, 0, d, ?_, f0, f17, d2, d3, d4, by omega, by omega, ?_⟩
      · unfold toChars; rw [d1]; rfl
      · rw [zpow_zero, mul_one]
        refine ⟨hch, ?_⟩
        unfold LastPlace
        have hx : magnitude bits = f.toNat := by
          unfold magnitude
          rw [← ec, ← hq', hqq, ← efc, zpow_neg, zpow_natCast]
          push_cast
          rw [mul_assoc, mul_inv_cancel₀ (by positivity), mul_one]
        have hlt : f.toNat < 2 ^ 52 := by
          have : f.toNat * 2 ^ 1 ≤ f.toNat * 2 ^ mq := Nat.mul_le_mul_left _ (Nat.pow_le_pow_right (by omega) (by omega))
          omega
        have := whole_of hx hlt
        rw [if_pos (by push_cast at this; exact this)]
    · rw [if_neg hcond]
      have hw : ¬ (magnitude bits < 2 ^ 52 ∧ (magnitude bits).den = 1) := by
        rintro ⟨w1, w2⟩
        apply hcond
        obtain ⟨x, hx⟩ : ∃ x, x = magnitude bits := ⟨_, rfl⟩
        have hxc : x = c.toNat * 2 ^ q := by rw [hx]; unfold magnitude; rw [ec, hq']
        rw [← hx] at w1 w2
        have hc' : (2 : ℚ) ^ 52 ≤ c.toNat := by exact_mod_cast hbig
        have hq0 : q < 0 := by
          by_contra hge
          have : (1 : ℚ) ≤ 2 ^ q := one_le_zpow₀ (by norm_num) (by omega)
          have : (2 : ℚ) ^ 52 * 1 ≤ c.toNat * 2 ^ q := mul_le_mul hc' this (by norm_num) (by positivity)
          linarith
        obtain ⟨mq, hmq'⟩ : ∃ mq : Nat, -q = mq := ⟨(-q).toNat, by omega⟩
        have hqq : q = -(mq : Int) := by omega
        have hn : (x.num : ℚ) = x := Rat.coe_int_num_of_den_eq_one w2
        have hpos : 0 < x := by rw [hxc]; positivity
        obtain ⟨k, hk⟩ : ∃ k : Nat, x.num = k := ⟨x.num.toNat, by have := Rat.num_pos.2 hpos; omega⟩
        have hkc : k * 2 ^ mq = c.toNat := by
          have : (k : ℚ) * 2 ^ mq = c.toNat := by
            rw [show (k : ℚ) = x by rw [← hn, hk]; rfl, hxc, hqq, zpow_neg, zpow_natCast, mul_assoc,
              inv_mul_cancel₀ (by positivity), mul_one]
          exact_mod_cast this
        have hk0 : 0 < k := by
          rcases Nat.eq_zero_or_pos k with h | h
          · rw [h] at hkc; omega
          · exact h
        have hmq53 : mq < 53 := by
          by_contra hge
          have h1 : 2 ^ 53 ≤ 2 ^ mq := Nat.pow_le_pow_right (by omega) (by omega)
          have h2 : 1 * 2 ^ mq ≤ k * 2 ^ mq := Nat.mul_le_mul_right _ hk0
          have := can.lt
          omega
        refine ⟨by omega, by omega, ?_⟩
        have hmod : (-q % 64).toNat = mq := by omega
        have clt := can.lt
        have ef : (c.sshiftRight mq).toNat = k := by
          rw [BitVec.sshiftRight_eq_of_msb_false
            (by rw [BitVec.msb_eq_false_iff_two_mul_lt]; omega), BitVec.toNat_ushiftRight,
            Nat.shiftRight_eq_div_pow, ← hkc, Nat.mul_div_cancel _ (by positivity)]
        apply BitVec.eq_of_toNat_eq
        unfold shl
        rw [hmod, BitVec.toNat_shiftLeft, Nat.shiftLeft_eq, ef, hkc, Nat.mod_eq_of_lt (by omega)]
      obtain ⟨f, e, n, a1, a2, a3, a4, a5, a6, a7, a8, a9, a10⟩ := (toDecimal'_ok can hq (by omega)).out
      refine ⟨f, e, n, a1, a2, a3, a4, a5, a6, a7, a8, a9, hlast hw (by omega) ?_⟩
      rw [← ec, ← hq']; exact a10

end FastPrintf.DoubleToDecimal
