/-
The pure-Java `multiplyHigh` computes the exact high word.
-/
import Verif.Model.MathUtils
import Mathlib.Tactic.Linarith
import Mathlib.Tactic.Ring
import Mathlib.Algebra.Order.Ring.Abs
namespace FastPrintf
open MultiplyHigh

theorem toInt_eq_of_bounds (v : Int) (h1 : -2^63 ≤ v) (h2 : v < 2^63) : v.bmod (2^64) = v := by
  rw [Int.bmod_def]; split <;> omega

theorem mul_bounds {a b A B : Int} (ha1 : -A ≤ a) (ha2 : a < A) (hb1 : 0 ≤ b) (hb2 : b ≤ B) (hA : 1 ≤ A) :
    -(A*B) ≤ a*b ∧ a * b ≤ (A-1)*B := by
  refine ⟨?_, ?_⟩
  · nlinarith
  · calc a * b ≤ (A - 1) * b := mul_le_mul_of_nonneg_right (by omega) hb1
      _ ≤ (A - 1) * B := mul_le_mul_of_nonneg_left hb2 (by omega)

/-- The fallback is the floor of the product divided by 2^64. -/
theorem slow_toInt (x y : BitVec 64) :
    (slowMultiplyHigh x y).toInt = x.toInt * y.toInt / 2 ^ 64 := by
  have hx1 := BitVec.two_mul_toInt_lt (x := x)
  have hx2 := BitVec.le_two_mul_toInt (x := x)
  have hy1 := BitVec.two_mul_toInt_lt (x := y)
  have hy2 := BitVec.le_two_mul_toInt (x := y)
  have e32 : ∀ v : BitVec 64, (v &&& 0xFFFFFFFF#64).toNat = v.toNat % 2^32 := by
    intro v
    rw [BitVec.toNat_and]
    exact Nat.and_two_pow_sub_one_eq_mod v.toNat 32
  have i32 : ∀ v : BitVec 64, (v &&& 0xFFFFFFFF#64).toInt = v.toInt % 2^32 := by
    intro v
    have := e32 v
    rw [BitVec.toInt_eq_toNat_of_lt (by omega), this, BitVec.toInt_eq_toNat_cond]
    split <;> omega
  have s32 : ∀ v : BitVec 64, (v.sshiftRight 32).toInt = v.toInt / 2^32 := by
    intro v; rw [BitVec.toInt_sshiftRight, Int.shiftRight_eq_div_pow]; rfl
  unfold slowMultiplyHigh
  simp only []
  generalize hX : x.toInt = X at *
  generalize hY : y.toInt = Y at *
  -- z2
  have z2n : (((x &&& 0xFFFFFFFF#64) * (y &&& 0xFFFFFFFF#64)) >>> 32).toInt
      = (X % 2^32) * (Y % 2^32) / 2^32 := by
    have a := i32 x; have b := i32 y
    have a' := e32 x; have b' := e32 y
    rw [BitVec.toInt_eq_toNat_of_lt (by omega)] at a b
    rw [hX] at a; rw [hY] at b
    have hm : (x &&& 0xFFFFFFFF#64).toNat * (y &&& 0xFFFFFFFF#64).toNat < 2^64 := by
      have h1 : (x &&& 0xFFFFFFFF#64).toNat ≤ 2^32 - 1 := by omega
      have h2 : (y &&& 0xFFFFFFFF#64).toNat ≤ 2^32 - 1 := by omega
      have := Nat.mul_le_mul h1 h2
      omega
    have h3 : (((x &&& 0xFFFFFFFF#64) * (y &&& 0xFFFFFFFF#64)) >>> 32).toNat
        = (x &&& 0xFFFFFFFF#64).toNat * (y &&& 0xFFFFFFFF#64).toNat / 2^32 := by
      rw [BitVec.toNat_ushiftRight, BitVec.toNat_mul, Nat.mod_eq_of_lt hm, Nat.shiftRight_eq_div_pow]
    rw [BitVec.toInt_eq_toNat_of_lt (by omega), h3, ← a, ← b]
    push_cast; rfl
  have bx := mul_bounds (a := X / 2^32) (b := Y % 2^32) (A := 2^31) (B := 2^32 - 1)
    (by omega) (by omega) (by omega) (by omega) (by omega)
  have by' := mul_bounds (a := Y / 2^32) (b := X % 2^32) (A := 2^31) (B := 2^32 - 1)
    (by omega) (by omega) (by omega) (by omega) (by omega)
  have bz : 0 ≤ (X % 2^32) * (Y % 2^32) / 2^32 ∧ (X % 2^32) * (Y % 2^32) / 2^32 < 2^32 - 1 := by
    have h0 : 0 ≤ (X % 2^32) := by omega
    have h1 : 0 ≤ (Y % 2^32) := by omega
    have h2 : (X % 2^32) ≤ 2^32 - 1 := by omega
    have h3 : (Y % 2^32) ≤ 2^32 - 1 := by omega
    have := mul_le_mul h2 h3 h1 (by omega)
    have := mul_nonneg h0 h1
    constructor <;> omega
  have tI : (x.sshiftRight 32 * (y &&& 0xFFFFFFFF#64)
      + ((x &&& 0xFFFFFFFF#64) * (y &&& 0xFFFFFFFF#64)) >>> 32).toInt
      = X / 2^32 * (Y % 2^32) + (X % 2^32) * (Y % 2^32) / 2^32 := by
    rw [BitVec.toInt_add, z2n, BitVec.toInt_mul, s32, i32, hX, hY, toInt_eq_of_bounds (_ * _),
      toInt_eq_of_bounds] <;> omega
  have z1I : (((x.sshiftRight 32 * (y &&& 0xFFFFFFFF#64)
      + ((x &&& 0xFFFFFFFF#64) * (y &&& 0xFFFFFFFF#64)) >>> 32) &&& 0xFFFFFFFF#64)
        + (x &&& 0xFFFFFFFF#64) * y.sshiftRight 32).toInt
      = (X / 2^32 * (Y % 2^32) + (X % 2^32) * (Y % 2^32) / 2^32) % 2^32
        + Y / 2^32 * (X % 2^32) := by
    rw [BitVec.toInt_add, i32, tI, BitVec.toInt_mul, s32, i32, hX, hY, mul_comm (X % _) (Y / _),
      toInt_eq_of_bounds (_ * _), toInt_eq_of_bounds] <;> omega
  have hXY : X * Y / 2^64 = X / 2^32 * (Y / 2^32) + (X / 2^32 * (Y % 2^32) + (X % 2^32) * (Y % 2^32) / 2^32) / 2^32
      + ((X / 2^32 * (Y % 2^32) + (X % 2^32) * (Y % 2^32) / 2^32) % 2^32
        + Y / 2^32 * (X % 2^32)) / 2^32 := by
    have ex : X = 2^32 * (X / 2^32) + X % 2^32 := by omega
    have ey : Y = 2^32 * (Y / 2^32) + Y % 2^32 := by omega
    have : X * Y = 2^64 * (X / 2^32 * (Y / 2^32)) + 2^32 * (X / 2^32 * (Y % 2^32)) + 2^32 * (Y / 2^32 * (X % 2^32))
      + (X % 2^32) * (Y % 2^32) := by
      conv => lhs; rw [ex, ey]
      ring
    rw [this]
    omega
  have bp : -2^63 ≤ X * Y / 2^64 ∧ X * Y / 2^64 < 2^63 := by
    have : -2^126 ≤ X * Y ∧ X * Y ≤ 2^126 := by
      have a1 : |X| ≤ 2^63 := by rw [abs_le]; omega
      have a2 : |Y| ≤ 2^63 := by rw [abs_le]; omega
      have := mul_le_mul a1 a2 (abs_nonneg _) (by norm_num)
      rw [← abs_mul, abs_le] at this
      omega
    omega
  rw [BitVec.toInt_add, BitVec.toInt_add, s32, s32, tI, z1I, BitVec.toInt_mul, s32, s32, hX, hY]
  rw [hXY] at bp ⊢
  rw [show ((2:Nat)^64 : Nat) = 2^64 from rfl]
  simp only [Int.bmod_add_bmod]
  exact toInt_eq_of_bounds _ bp.1 bp.2
end FastPrintf
