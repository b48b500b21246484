/-
Both implementations that the library chooses between at start-up do the same.
-/
import Verif.Spec.Versions
import Verif.Proofs.MultiplyHigh
import Verif.Proofs.Engine

namespace FastPrintf
namespace Versions
open Spec

theorem multiplyHigh_same (lib : Library) : multiplyHigh lib = MultiplyHigh.multiplyHigh := by
  funext x y
  unfold multiplyHigh MultiplyHigh.multiplyHigh
  split
  · rfl
  · rw [MultiplyHigh.jdkMultiplyHigh, ← slow_toInt x y, BitVec.ofInt_toInt]

theorem rop_same (lib : Library) : rop lib = DoubleToDecimal.rop := by
  funext g1 g0 cp
  unfold rop DoubleToDecimal.rop
  rw [multiplyHigh_same]

theorem choose_same (lib : Library) : choose lib = DoubleToDecimal.choose := by
  funext a b c d
  unfold choose DoubleToDecimal.choose
  rw [multiplyHigh_same]

theorem toDecimal'_same (lib : Library) : toDecimal' lib = DoubleToDecimal.toDecimal' := by
  funext q c dk
  unfold toDecimal' DoubleToDecimal.toDecimal'
  rw [rop_same, choose_same]

theorem toDecimal_same (lib : Library) : toDecimal lib = DoubleToDecimal.toDecimal := by
  funext bits
  unfold toDecimal DoubleToDecimal.toDecimal
  rw [toDecimal'_same]

theorem ofBits_same (lib : Library) : ofBits lib = FormattedFPDecimal.ofBits := by
  funext bits
  unfold ofBits FormattedFPDecimal.ofBits split DoubleToDecimal.split
  rw [toDecimal_same]
  rfl

theorem ofDouble_same (lib : Library) (bits : BitVec 64) : ofDouble lib bits = FloatForm.ofDouble bits := by
  have e1 : generalLayout lib bits = DoubleWrapper.generalLayout bits := by
    funext p; unfold generalLayout DoubleWrapper.generalLayout; rw [ofBits_same]
  have e2 : scientificLayout lib bits = DoubleWrapper.scientificLayout bits := by
    funext p; unfold scientificLayout DoubleWrapper.scientificLayout; rw [ofBits_same]
  have e3 : decimalLayout lib bits = DoubleWrapper.decimalLayout bits := by
    funext p; unfold decimalLayout DoubleWrapper.decimalLayout; rw [ofBits_same]
  unfold ofDouble
  rw [e1, e2, e3]
  rfl

theorem y_same (lib : Library) : y lib = DoubleToDecimal.y := by
  funext a
  unfold y DoubleToDecimal.y
  rw [multiplyHigh_same]

theorem append8Digits_same (lib : Library) : append8Digits lib = DoubleToDecimal.append8Digits := by
  funext m b
  unfold append8Digits DoubleToDecimal.append8Digits
  rw [y_same]

theorem lowDigits_same (lib : Library) : lowDigits lib = DoubleToDecimal.lowDigits := by
  funext l b
  unfold lowDigits DoubleToDecimal.lowDigits
  rw [append8Digits_same]

theorem toCharsAt_same (lib : Library) : toCharsAt lib = DoubleToDecimal.toCharsAt := by
  have e1 : toChars1 lib = DoubleToDecimal.toChars1 := by
    funext h m l e b; unfold toChars1 DoubleToDecimal.toChars1; rw [y_same, lowDigits_same]
  have e2 : toChars2 lib = DoubleToDecimal.toChars2 := by
    funext h m l e b; unfold toChars2 DoubleToDecimal.toChars2; rw [append8Digits_same, lowDigits_same]
  have e3 : toChars3 lib = DoubleToDecimal.toChars3 := by
    funext h m l e b; unfold toChars3 DoubleToDecimal.toChars3; rw [append8Digits_same, lowDigits_same]
  funext f e n b
  unfold toCharsAt DoubleToDecimal.toCharsAt
  rw [multiplyHigh_same, e1, e2, e3]

theorem toDecimalString_same (lib : Library) : toDecimalString lib = DoubleToDecimal.toDecimalString := by
  funext bits
  unfold toDecimalString DoubleToDecimal.toDecimalString
  rw [toDecimal_same, toCharsAt_same]
  rfl

/-! ### Repeated characters -/

theorem flatten_units {c : JChar} (hc : c < 65536) (n : Nat) :
    (List.replicate n (unitsOf c)).flatten = List.replicate n c := by
  unfold unitsOf
  rw [if_pos hc]
  induction n with
  | zero => rfl
  | succ n ih => rw [List.replicate_succ, List.flatten_cons, ih, List.replicate_succ]; rfl

theorem appendLoop_none (c : JChar) (n : Nat) (sb : JStr) :
    appendLoop none c n sb = (none, sb ++ List.replicate n c) := by
  induction n generalizing sb with
  | zero => simp [appendLoop]
  | succ n ih =>
    simp only [appendLoop, put]
    rw [ih, List.append_assoc]; rfl

theorem appendLoop_fits {room : Nat} (c : JChar) (n : Nat) (sb : JStr) (h : sb.length + n ≤ room) :
    appendLoop (some room) c n sb = (none, sb ++ List.replicate n c) := by
  induction n generalizing sb with
  | zero => simp [appendLoop]
  | succ n ih =>
    simp only [appendLoop, put]
    rw [if_pos (by simp; omega)]
    simp only
    rw [ih _ (by simp; omega), List.append_assoc]; rfl

theorem appendLoop_full {room : Nat} (c : JChar) (n : Nat) (sb : JStr) (h : room < sb.length + n)
    (hs : sb.length ≤ room) :
    appendLoop (some room) c n sb = (some .outOfMemory, sb ++ List.replicate (room - sb.length) c) := by
  induction n generalizing sb with
  | zero => omega
  | succ n ih =>
    simp only [appendLoop, put]
    by_cases hf : sb.length + [c].length ≤ room
    · rw [if_pos hf]
      simp only [List.length_singleton] at hf
      simp only
      rw [ih _ (by simp; omega) (by simp; omega), List.append_assoc]
      have e : room - sb.length = (room - (sb ++ [c]).length) + 1 := by simp; omega
      rw [e, List.replicate_succ]; rfl
    · rw [if_neg hf]
      simp only [List.length_singleton] at hf
      have e : room - sb.length = 0 := by omega
      rw [e]; simp

theorem repeatCodePoint_char (room : Option Nat) {c : JChar} (hc : c < 65536) (n : Nat) (sb : JStr) :
    repeatCodePoint room c n sb = put room (List.replicate n c) sb := by
  unfold repeatCodePoint
  rw [if_neg (by omega)]
  simp only [Int.toNat_natCast]
  rw [flatten_units hc]

theorem appendTo_none (lib : Library) {c : JChar} {n : Nat} (hc : n ≠ 0 → c < 65536) (sb : JStr) :
    appendTo lib none c n sb = (none, sb ++ List.replicate n c) := by
  unfold appendTo
  by_cases h0 : n = 0
  · subst h0
    by_cases hl : lib.repeat_ = true
    · rw [if_pos hl]
      rw [repeatCodePoint_char none (Nat.mod_lt _ (by norm_num))]; simp [put]
    · rw [if_neg hl]; simp [appendRepeated]
  · by_cases hl : lib.repeat_ = true
    · rw [if_pos hl, Nat.mod_eq_of_lt (hc h0), repeatCodePoint_char none (hc h0)]; simp [put]
    · rw [if_neg hl]
      unfold appendRepeated
      rw [if_neg h0]
      split_ifs
      · simp only [ensureCapacity]; exact appendLoop_none c n sb
      · exact appendLoop_none c n sb
      · simp [put]

theorem wrap_small {x : Int} (h0 : 0 ≤ x) (h : x < 2147483648) : wrap32 x = x := by
  unfold wrap32
  rw [Int.bmod_eq_of_le (by norm_num; omega) (by norm_num; omega)]

theorem wrap_big {x : Int} (h0 : 2147483648 ≤ x) (h : x < 4294967296) : wrap32 x = x - 4294967296 := by
  unfold wrap32
  have h2 : (x - 4294967296).bmod (2 ^ 32) = x - 4294967296 :=
    Int.bmod_eq_of_le (by norm_num; omega) (by norm_num; omega)
  rw [← h2, ← Int.sub_bmod_right x (2 ^ 32)]
  norm_num

theorem ensure_ok {room : Nat} {k : Int} (h : k ≤ room) (sb : JStr) : ensureCapacity (some room) k sb = (none, sb) := by
  unfold ensureCapacity
  exact if_pos h

theorem ensure_full {room : Nat} {k : Int} (h : ¬ k ≤ room) (sb : JStr) :
    ensureCapacity (some room) k sb = (some .outOfMemory, sb) := by
  unfold ensureCapacity
  exact if_neg h

theorem put_ok {room : Nat} {t sb : JStr} (h : sb.length + t.length ≤ room) : put (some room) t sb = (none, sb ++ t) := by
  unfold put
  exact if_pos h

theorem put_full {room : Nat} {t sb : JStr} (h : ¬ sb.length + t.length ≤ room) :
    put (some room) t sb = (some .outOfMemory, sb) := by
  unfold put
  exact if_neg h

theorem own_fits {room : Nat} (c : JChar) {n : Nat} {sb : JStr} (h : sb.length + n ≤ room)
    (hr : room < 2147483648) : appendRepeated (some room) c n sb = (none, sb ++ List.replicate n c) := by
  have e : wrap32 (sb.length + n) ≤ room := by
    rw [wrap_small (by omega) (by omega)]; omega
  unfold appendRepeated
  by_cases h0 : n = 0
  · rw [if_pos h0, h0]; simp
  rw [if_neg h0, ensure_ok e, appendLoop_fits c n sb h, put_ok (by rw [List.length_replicate]; exact h)]
  split_ifs
  · exact appendLoop_fits c n sb h
  · rfl
  · rfl

theorem own_full {room : Nat} (c : JChar) {n : Nat} (hn : n < 2147483648) {sb : JStr} (h : room < sb.length + n)
    (hs : sb.length ≤ room) (hr : room < 2147483648) :
    appendRepeated (some room) c n sb = (some .outOfMemory, leftOver room c n sb) := by
  have et : Atomic.arrayAppendThreshold = 16 := rfl
  unfold appendRepeated leftOver
  rw [if_neg (show ¬ n = 0 by omega), et, appendLoop_full c n sb h hs,
    put_full (by rw [List.length_replicate]; omega)]
  by_cases h16 : n < 16
  · rw [if_pos h16]
    by_cases h1 : n > 1
    · rw [if_pos h1]
      by_cases hb : 2147483648 ≤ sb.length + n
      · rw [ensure_ok (by rw [wrap_big (by omega) (by omega)]; omega), if_pos ⟨h16, hb⟩]
        exact appendLoop_full c n sb h hs
      · rw [ensure_full (by rw [wrap_small (by omega) (by omega)]; omega), if_neg (fun hx => hb hx.2)]
    · rw [if_neg h1]
      have : room - sb.length = 0 := by omega
      rw [this]
      split_ifs <;> simp
  · rw [if_neg h16, if_neg (fun hx => h16 hx.1)]

theorem appendTo_fits (lib : Library) {room : Nat} {c : JChar} (hc : c < 65536) {n : Nat} {sb : JStr}
    (h : sb.length + n ≤ room) (hr : room < 2147483648) :
    appendTo lib (some room) c n sb = (none, sb ++ List.replicate n c) := by
  unfold appendTo
  by_cases hl : lib.repeat_ = true
  · rw [if_pos hl, Nat.mod_eq_of_lt hc, repeatCodePoint_char _ hc, put_ok (by rw [List.length_replicate]; exact h)]
  · rw [if_neg hl]
    exact own_fits c h hr

theorem appendTo_repeat {lib : Library} (hl : lib.repeat_ = true) {room : Nat} {c : JChar} (hc : c < 65536) {n : Nat}
    {sb : JStr} (h : room < sb.length + n) :
    appendTo lib (some room) c n sb = (some (.runtime .outOfMemory), sb) := by
  unfold appendTo
  rw [if_pos hl, Nat.mod_eq_of_lt hc, repeatCodePoint_char _ hc]
  simp only [put]
  rw [if_neg (by simpa using h)]

theorem appendTo_own {lib : Library} (hl : lib.repeat_ = false) {room : Nat} {c : JChar} {n : Nat} (hn : n < 2147483648)
    {sb : JStr} (h : room < sb.length + n) (hs : sb.length ≤ room) (hr : room < 2147483648) :
    appendTo lib (some room) c n sb = (some .outOfMemory, leftOver room c n sb) := by
  unfold appendTo
  rw [if_neg (by rw [hl]; exact Bool.false_ne_true)]
  exact own_full c hn h hs hr

/-! ### Whole sequences and calls -/

theorem leafToSB_same (lib : Library) {a : Atomic} {sb : JStr}
    (h : ∀ c n, a = .repeated c n → n ≠ 0 → c < 65536) : leafToSB lib a sb = a.appendToSB sb := by
  cases a with
  | repeated c n =>
    simp only [leafToSB, Atomic.appendToSB]
    rw [appendTo_none lib (h c n rfl)]
  | _ => rfl

/-- What a builder holds after the leaves have been written, or one of them has thrown. -/
def leavesEnd (es : List Atomic) (sb : JStr) : JStr :=
  match Seq.appendLeavesSB es sb with
  | .ok t => t
  | .error _ => Seq.leavesSBLeft es sb

theorem leavesEnd_cons {a : Atomic} {es : List Atomic} {sb t : JStr} (h : a.appendToSB sb = .ok t) :
    leavesEnd (a :: es) sb = leavesEnd es t := by
  unfold leavesEnd
  rw [Seq.appendLeavesSB, Seq.leavesSBLeft, h, bind_ok]

theorem leavesEnd_prefix (es : List Atomic) (sb : JStr) : sb <+: leavesEnd es sb := by
  unfold leavesEnd
  rw [Seq.appendLeavesSB_prefix, Seq.leavesSBLeft_prefix]
  cases Seq.appendLeavesSB es [] <;> exact List.prefix_append _ _

theorem leavesToSB_same (lib : Library) (es : List Atomic) (sb : JStr) (h : Chars (leavesEnd es sb)) :
    leavesToSB lib es sb = Seq.appendLeavesSB es sb := by
  induction es generalizing sb with
  | nil => rfl
  | cons a es ih =>
    have e : leafToSB lib a sb = a.appendToSB sb := by
      apply leafToSB_same
      rintro c n rfl hn
      have h1 : Atomic.appendToSB (.repeated c n) sb = .ok (sb ++ List.replicate n c) := rfl
      rw [leavesEnd_cons h1] at h
      refine h c ((leavesEnd_prefix es _).subset ?_)
      simp [hn]
    rw [leavesToSB, Seq.appendLeavesSB, e]
    rcases hx : a.appendToSB sb with e | t
    · rfl
    · rw [leavesEnd_cons hx] at h
      simp only [bind_ok]
      exact ih t h

/-- What a builder holds after a sequence has been written, or has thrown. -/
def seqEnd (s : Seq) (sb : JStr) : JStr :=
  match s.appendToSB sb with
  | .ok t => t
  | .error _ => s.leftInSB sb

theorem leaves_same (lib : Library) {s : Seq} (hs : ∀ a, s ≠ .atom a) (sb : JStr) (h : Chars (seqEnd s sb)) :
    seqToSB lib s sb = s.appendToSB sb := by
  have e1 : seqToSB lib s sb = (s.leaves >>= fun es => leavesToSB lib es sb) := by
    cases s with
    | atom a => exact absurd rfl (hs a)
    | _ => rfl
  have e2 : s.appendToSB sb = (s.leaves >>= fun es => Seq.appendLeavesSB es sb) := by
    cases s with
    | atom a => exact absurd rfl (hs a)
    | _ => rfl
  have e3 : s.leftInSB sb = match s.leaves with
      | .ok es => Seq.leavesSBLeft es sb
      | .error _ => sb := by
    cases s with
    | atom a => exact absurd rfl (hs a)
    | _ => rfl
  unfold seqEnd at h
  rw [e2, e3] at h
  rw [e1, e2]
  rcases hl : s.leaves with e | es
  · rfl
  · rw [hl] at h
    simp only [bind_ok] at h ⊢
    exact leavesToSB_same lib es sb h

theorem seqToSB_same (lib : Library) (s : Seq) (sb : JStr) (h : Chars (seqEnd s sb)) :
    seqToSB lib s sb = s.appendToSB sb := by
  cases s with
  | atom a =>
    apply leafToSB_same
    rintro c n rfl hn
    refine h c ?_
    show c ∈ sb ++ List.replicate n c
    simp [hn]
  | concat l r n k => exact leaves_same lib (by simp) sb h
  | array es n => exact leaves_same lib (by simp) sb h

theorem runSB_same (lib : Library) (env : DateEnv) (apps : List Appender) (args : List Traits) (sb : JStr)
    (h : Chars (FastPrintf.runSB env apps args sb).target) :
    runSB lib env apps args sb = FastPrintf.runSB env apps args sb := by
  induction apps generalizing args sb with
  | nil => rfl
  | cons a apps ih =>
    unfold runSB
    unfold FastPrintf.runSB at h ⊢
    rcases hx : a.append env args with e | ⟨q, rest⟩
    · rfl
    · rw [hx] at h
      simp only at h ⊢
      rcases hq : q.appendToSB sb with e | t
      · rw [hq] at h
        rw [seqToSB_same lib q sb (by unfold seqEnd; rw [hq]; exact h), hq]
      · rw [hq] at h
        have hp : t <+: (FastPrintf.runSB env apps rest t).target := by
          rw [runSB_prefix]; exact List.prefix_append _ _
        rw [seqToSB_same lib q sb (by unfold seqEnd; rw [hq]; exact fun c hc => h c (hp.subset hc)), hq]
        exact ih rest t h

theorem runsOn_same {lib : Library} {v v' : Traits} (h : RunsOn lib v v') : v' = v := by
  cases h with
  | same => rfl
  | double h => rw [ofDouble_same, ← h]

theorem allRunsOn_same {lib : Library} {vs vs' : List Traits} (h : List.Forall₂ (RunsOn lib) vs vs') : vs' = vs := by
  induction h with
  | nil => rfl
  | cons h _ ih => rw [runsOn_same h, ih]

end Versions
end FastPrintf
