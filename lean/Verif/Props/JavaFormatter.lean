/-
C98: agreement with `String.format`, as the documentation of `java.util.Formatter` describes it, and the exact
list of the differences.
-/
import Verif.Proofs.JavaFormatter
import Verif.Props.BigDecimal
import Verif.Props.Integers
import Verif.Props.CFloat

namespace FastPrintf
open Spec

namespace JavaFormatter

/-! ### Integers -/

theorem count_field (left zero : Bool) (w : Nat) (pre body : JStr) :
    (Spec.field left zero w pre body).count 48 =
      pre.count 48 + body.count 48 + if zero = true ∧ left = false then w - (pre.length + body.length) else 0 := by
  unfold Spec.field
  cases left <;> cases zero <;> simp [List.count_replicate] <;> omega

theorem shortest_zero {b : Nat} (h2 : 2 ≤ b) (h16 : b ≤ 16) {ds : JStr} (h : Shortest b 0 ds) : ds = [48] := by
  have : Shortest b 0 [48] := by
    refine ⟨⟨by simp, ?_⟩, Or.inl rfl, by simp [valueIn, digitVal]⟩
    intro c hc
    rw [List.mem_singleton.1 hc]
    exact ⟨by decide, by unfold digitVal; simp; omega⟩
  exact h.unique h2 h16 this

theorem shortest_precision {b n : Nat} {ds : JStr} (h : Shortest b n ds) (z : Bool) : withPrecision none z ds = ds := by
  have : 1 ≤ ds.length := List.length_pos_iff.2 h.1.1
  unfold withPrecision
  rw [if_neg (by simp)]
  simp [Nat.sub_eq_zero_of_le this]

theorem base_ok (c : UConv) : 2 ≤ c.base ∧ c.base ≤ 16 := by cases c <;> decide

theorem radix_eq {d : Directive} {c : UConv} (hc : d.conv = c.char) :
    d.radix = if ch! '#' ∈ d.flags then (if c = .o then js! "0" else js! "0x") else [] := by
  unfold Directive.radix
  rw [hc]
  cases c <;> rfl

theorem unsigned_agree {d : Directive} {c : UConv} (hc : d.conv = c.char) (hu : c ≠ .u) {n : Nat} {out ds : JStr}
    (ho : UnsignedNumberText c (flagSet d.flags) d.width.width none n out) (hd : Shortest c.base n ds)
    (hn : ¬ (ch! '#' ∈ d.flags ∧ n = 0)) : out = d.field d.radix ds := by
  rcases ho with ⟨h0, h1, _⟩ | ⟨_, ds', h1, h2⟩
  · have := h1.1
    rw [alternate_eq, decide_eq_true_eq] at this
    exact absurd ⟨this, h0⟩ hn
  · obtain rfl := h1.unique (base_ok c).1 (base_ok c).2 hd
    rw [shortest_precision h1, alternate_eq] at h2
    rw [h2, radix_eq hc]
    unfold Directive.field
    simp only [Option.isNone_none, Bool.and_true]
    by_cases hf : ch! '#' ∈ d.flags
    · have hn0 : n ≠ 0 := fun h => hn ⟨hf, h⟩
      have hh : ds'.head? ≠ some 48 := by
        intro hh
        rcases h1.2.1 with h | h
        · rw [h] at h1
          exact hn0 (by rw [← h1.2.2]; simp [valueIn, digitVal])
        · exact h hh
      cases c with
      | u => exact absurd rfl hu
      | o =>
        simp only [alternative, hf, decide_true, true_and, if_pos hh, if_true]
        unfold Spec.field
        have e : ∀ k, List.replicate k 48 ++ 48 :: ds' = 48 :: (List.replicate k 48 ++ ds') := by
          intro k
          rw [← List.cons_append, ← List.replicate_succ, List.replicate_succ', List.append_assoc]; rfl
        cases (flagSet d.flags).leftJustify <;> cases (flagSet d.flags).zeroPad <;>
          simp [e, Nat.add_comm]
      | x => simp [alternative, hf, hn0]
    · cases c with
      | u => exact absurd rfl hu
      | o => simp [alternative, hf]
      | x => simp [alternative, hf]

theorem unsigned_zero {d : Directive} {c : UConv} (hc : d.conv = c.char) (hu : c ≠ .u)
    (hs : ¬ (ch! '-' ∈ d.flags ∧ ch! '0' ∈ d.flags)) {out ds : JStr}
    (ho : UnsignedNumberText c (flagSet d.flags) d.width.width none 0 out) (hd : Shortest c.base 0 ds)
    (hf : ch! '#' ∈ d.flags) : out.count 48 ≠ (d.field d.radix ds).count 48 := by
  obtain rfl := shortest_zero (base_ok c).1 (base_ok c).2 hd
  have hsides : (flagSet d.flags).zeroPad = true → (flagSet d.flags).leftJustify = false := by
    rw [zero_eq, left_eq]
    intro h0
    have h0 := of_decide_eq_true h0
    exact decide_eq_false fun h => hs ⟨h, h0⟩
  unfold Directive.field
  rw [count_field, radix_eq hc, if_pos hf]
  have halt : (flagSet d.flags).alternate = true := by rw [alternate_eq]; exact decide_eq_true hf
  generalize d.width.width = w at ho ⊢
  rcases ho with ⟨_, ⟨_, h1⟩, h2⟩ | ⟨h1, ds', h2, h3⟩
  · have hz : (flagSet d.flags).zeroPad = true ∧ (flagSet d.flags).leftJustify = false ∧ 2 ≤ w := by
      rcases h1 with ⟨_, h | ⟨n, h, _⟩⟩ | ⟨_, _, h⟩
      · cases h
      · cases h
      · exact h
    have hcount : out.count 48 = if c = .x then max 1 (w - 2) else w - 1 := by
      rw [h2]
      unfold oddZeroText Spec.padded
      rw [hz.2.1]
      simp [List.count_replicate]
    rw [hcount, hz.1, hz.2.1]
    cases c with
    | u => exact absurd rfl hu
    | o => simp; omega
    | x => simp; omega
  · obtain rfl := shortest_zero (base_ok c).1 (base_ok c).2 h2
    rw [shortest_precision h2] at h3
    have hcount : out.count 48 = 1 + if (flagSet d.flags).zeroPad = true ∧ (flagSet d.flags).leftJustify = false
        then w - 1 else 0 := by
      rw [h3, count_field]
      cases c with
      | u => exact absurd rfl hu
      | o => simp [alternative]
      | x => simp [alternative]
    have hw : (flagSet d.flags).zeroPad = true → w < 2 := by
      intro hz
      by_contra hw
      exact h1 ⟨rfl, halt, .inr ⟨hu, rfl, hz, hsides hz, by omega⟩⟩
    rw [hcount]
    by_cases hz : (flagSet d.flags).zeroPad = true
    · have := hw hz
      have hq : (flagSet d.flags).zeroPad = true ∧ (flagSet d.flags).leftJustify = false := ⟨hz, hsides hz⟩
      simp only [if_pos hq]
      cases c with
      | u => exact absurd rfl hu
      | o => simp; omega
      | x => simp; omega
    · have hq : ¬ ((flagSet d.flags).zeroPad = true ∧ (flagSet d.flags).leftJustify = false) := fun h => hz h.1
      simp only [if_neg hq]
      cases c with
      | u => exact absurd rfl hu
      | o => simp
      | x => simp

theorem unsigned_no_plus {c : UConv} {fl : Flags} {w n : Nat} {out : JStr}
    (ho : UnsignedNumberText c fl w none n out) : 43 ∉ out.map Spec.upper := by
  have key : 43 ∉ out := by
    rcases ho with ⟨_, _, h2⟩ | ⟨_, ds', h2, h3⟩
    · rw [h2]
      unfold oddZeroText Spec.padded
      split_ifs <;> simp [List.mem_replicate]
    · rw [h3]
      have hd : ∀ c ∈ ds', c ≠ 43 := fun c hc => by have := (h2.1.2 c hc).1; omega
      rw [shortest_precision h2]
      intro h
      rcases mem_field h with h | h | h | h
      · omega
      · omega
      · cases c <;> simp only [alternative] at h
        · simp at h
        · simp at h
        · split_ifs at h <;> simp at h
      · cases c <;> simp only [alternative] at h
        · exact hd _ h rfl
        · split_ifs at h
          · rcases List.mem_cons.1 h with h | h
            · omega
            · exact hd _ h rfl
          · exact hd _ h rfl
        · exact hd _ h rfl
  intro h
  obtain ⟨y, hy, h⟩ := List.mem_map.1 h
  have : y = 43 := by unfold Spec.upper at h; split_ifs at h <;> omega
  exact key (this ▸ hy)

theorem signed_agree {d : Directive} {v : Int} {out ds : JStr}
    (ho : SignedNumberText (flagSet d.flags) d.width.width none v out) (hd : Shortest 10 v.natAbs ds) :
    out = d.field (d.sign (v < 0)) ds := by
  unfold SignedNumberText at ho
  rw [if_neg (by simp)] at ho
  obtain ⟨ds', h1, h2⟩ := ho
  obtain rfl := h1.unique (by omega) (by omega) hd
  rw [h2, shortest_precision h1]
  simp [Directive.field, Directive.sign]

theorem javaUnsigned_eq {x : Integral} {n : Nat} (h : x.javaUnsigned = some (n : Int)) :
    x.unsigned = some n ∧ (n = 0 ↔ x.value = 0) := by
  have key : ∀ (k : Nat) (v : Int), -(2 ^ k) ≤ 2 * v → 2 * v < 2 ^ k → 0 < (2 : Int) ^ k →
      (if v < 0 then v + 2 ^ k else v) = n → (v % 2 ^ k).toNat = n ∧ (n = 0 ↔ v = 0) := by
    intro k v h1 h2 h3 h4
    generalize (2 : Int) ^ k = m at *
    by_cases hv : v < 0
    · rw [if_pos hv] at h4
      have : v % m = v + m := by
        rw [← Int.add_emod_right, Int.emod_eq_of_lt (by omega) (by omega)]
      omega
    · rw [if_neg hv] at h4
      rw [Int.emod_eq_of_lt (by omega) (by omega)]
      omega
  cases x with
  | byte v =>
    have := key 8 v.toInt (by have := v.le_two_mul_toInt; simpa using this) (by have := v.two_mul_toInt_lt; simpa using this) (by decide) (Option.some.inj h)
    exact ⟨congrArg some this.1, this.2⟩
  | short v =>
    have := key 16 v.toInt (by have := v.le_two_mul_toInt; simpa using this) (by have := v.two_mul_toInt_lt; simpa using this) (by decide) (Option.some.inj h)
    exact ⟨congrArg some this.1, this.2⟩
  | int v =>
    have := key 32 v.toInt (by have := v.le_two_mul_toInt; simpa using this) (by have := v.two_mul_toInt_lt; simpa using this) (by decide) (Option.some.inj h)
    exact ⟨congrArg some this.1, this.2⟩
  | long v =>
    have := key 64 v.toInt (by have := v.le_two_mul_toInt; simpa using this) (by have := v.two_mul_toInt_lt; simpa using this) (by decide) (Option.some.inj h)
    exact ⟨congrArg some this.1, this.2⟩
  | char v => cases h
  | bool v => cases h
  | big v => cases h

/-! ### One rule at a time -/

/-- What is shown of each rule: what the tables say, that it is Java's text unless the case is on the list, and that
it is another text, even in upper case, if it is. -/
def Verdict (jdk : JdkEnv) (env : DateEnv) (d : Directive) (e : Entry) (t : JStr) : Prop :=
  ∃ r, Prints jdk env d e r ∧ (¬ JavaDiffers d e → r = .ok t) ∧
    (JavaDiffers d e → r.map (·.map Spec.upper) ≠ .ok (t.map Spec.upper))

theorem Verdict.same {jdk : JdkEnv} {env : DateEnv} {d : Directive} {e : Entry} {t : JStr}
    (h : Prints jdk env d e (.ok t)) (hd : ¬ JavaDiffers d e) : Verdict jdk env d e t :=
  ⟨_, h, fun _ => rfl, fun h => absurd h hd⟩

theorem Verdict.other {jdk : JdkEnv} {env : DateEnv} {d : Directive} {e : Entry} {s t : JStr}
    (h : Prints jdk env d e (.ok s)) (hd : JavaDiffers d e) (hne : s.map Spec.upper ≠ t.map Spec.upper) :
    Verdict jdk env d e t :=
  ⟨_, h, fun h => absurd hd h, fun _ he => hne (Except.ok.inj he)⟩

theorem Verdict.refused {jdk : JdkEnv} {env : DateEnv} {d : Directive} {e : Entry} {err : Err} {t : JStr}
    (h : Prints jdk env d e (.error err)) (hd : JavaDiffers d e) : Verdict jdk env d e t :=
  ⟨_, h, fun h => absurd hd h, fun _ he => by cases he⟩

theorem isDouble_unique {e : Entry} {b b' : BitVec 64} (h : IsDouble e b) (h' : IsDouble e b') : b = b' := by
  cases h <;> cases h' <;> rfl

theorem isDouble_no_integral {e : Entry} {b : BitVec 64} (h : IsDouble e b) {x : Integral} : ¬ x.Given e := by
  intro hx
  cases h <;> cases hx <;> rename_i hx <;> cases x <;> simp [Integral.prim?] at hx

theorem prim_inj {x y : Integral} {p : Prim} (h : x.prim? = some p) (h' : y.prim? = some p) : x = y := by
  cases x <;> cases y <;> simp only [Integral.prim?, Option.some.injEq, reduceCtorEq] at h h' <;> subst h <;>
    simp only [reduceCtorEq, Prim.byte.injEq, Prim.short.injEq, Prim.char.injEq, Prim.int.injEq, Prim.long.injEq,
      Prim.bool.injEq] at h' <;>
    first | rw [h'] | rw [BitVec.eq_of_toNat_eq h']

theorem given_unique {e : Entry} {x y : Integral} (h : x.Given e) (h' : y.Given e) : x = y := by
  cases h with
  | prim h => cases h' with | prim h' => exact prim_inj h h'
  | boxed h id => cases h' with | boxed h' => exact prim_inj h h'
  | big v id => cases h' with | big => rfl

theorem precision_absent {d : Directive} (h : d.prec = .absent) : d.prec.precision = none := by rw [h]; rfl

theorem no_prec {d : Directive} (hd : d.JavaOk) (hc : d.conv ∈ js! "doxXc") : d.prec.precision = none := by
  refine precision_absent ?_
  rcases hd.conv with h | h | h | h | h | h
  · exact h.2.2
  · exact h.2
  · exfalso; revert h hc; generalize d.conv = c; intro hc h; simp at hc h; omega
  · exfalso; have h := h.1; revert h hc; generalize d.conv = c; intro hc h; simp at hc h; omega
  · exact h.2.2
  · exfalso; have h := h.1; revert h hc; generalize d.conv = c; intro hc h; simp at hc h; omega

theorem differs_d {d : Directive} {e : Entry} (hc : d.conv = ch! 'd') (h : JavaDiffers d e) :
    e = .ref .null := by
  cases h with
  | null h0 => exact rfl
  | zero h0 hf hx hz => exact absurd h0 (by rw [hc]; decide)
  | negative h0 hv id => exact absurd h0 (by rw [hc]; decide)
  | signedBig h0 hv hp id => exact absurd h0 (by rw [hc]; decide)
  | infinity h0 he hf hb hn hs hw => exact absurd h0 (by rw [hc]; decide)
  | longZero h0 hs hw id => exact absurd h0 (by rw [hc]; decide)
  | zeroExponent h0 hs id => exact absurd h0 (by rw [hc]; decide)
  | exponentNine h0 hz hn h10 hs id => exact absurd h0 (by rw [hc]; decide)
  | trailingZero h0 he hf hz hq hs hM hx => exact absurd h0 (by rw [hc]; decide)
  | supplementary h0 hx hn => exact absurd h0 (by rw [hc]; decide)
  | rope h0 id hw => exact absurd h0 (by rw [hc]; decide)

theorem differs_o {d : Directive} {e : Entry} (hc : d.conv = ch! 'o') (h : JavaDiffers d e) :
    e = .ref .null ∨
    (ch! '#' ∈ d.flags ∧ ∃ x : Integral, x.Given e ∧ x.value = 0) ∨
    (∃ v id, e = .ref (.bigInteger v id) ∧ v < 0) ∨
    (∃ v id, e = .ref (.bigInteger v id) ∧ ch! '+' ∈ d.flags) := by
  cases h with
  | null h0 => exact .inl rfl
  | zero h0 hf hx hz => exact .inr (.inl ⟨hf, _, hx, hz⟩)
  | negative h0 hv id => exact .inr (.inr (.inl ⟨_, _, rfl, hv⟩))
  | signedBig h0 hv hp id => exact .inr (.inr (.inr ⟨_, _, rfl, hp⟩))
  | infinity h0 he hf hb hn hs hw => exact absurd h0 (by rw [hc]; decide)
  | longZero h0 hs hw id => exact absurd h0 (by rw [hc]; decide)
  | zeroExponent h0 hs id => exact absurd h0 (by rw [hc]; decide)
  | exponentNine h0 hz hn h10 hs id => exact absurd h0 (by rw [hc]; decide)
  | trailingZero h0 he hf hz hq hs hM hx => exact absurd h0 (by rw [hc]; decide)
  | supplementary h0 hx hn => exact absurd h0 (by rw [hc]; decide)
  | rope h0 id hw => exact absurd h0 (by rw [hc]; decide)

theorem differs_x {d : Directive} {e : Entry} (hc : d.conv = ch! 'x') (h : JavaDiffers d e) :
    e = .ref .null ∨
    (ch! '#' ∈ d.flags ∧ ∃ x : Integral, x.Given e ∧ x.value = 0) ∨
    (∃ v id, e = .ref (.bigInteger v id) ∧ v < 0) ∨
    (∃ v id, e = .ref (.bigInteger v id) ∧ ch! '+' ∈ d.flags) := by
  cases h with
  | null h0 => exact .inl rfl
  | zero h0 hf hx hz => exact .inr (.inl ⟨hf, _, hx, hz⟩)
  | negative h0 hv id => exact .inr (.inr (.inl ⟨_, _, rfl, hv⟩))
  | signedBig h0 hv hp id => exact .inr (.inr (.inr ⟨_, _, rfl, hp⟩))
  | infinity h0 he hf hb hn hs hw => exact absurd h0 (by rw [hc]; decide)
  | longZero h0 hs hw id => exact absurd h0 (by rw [hc]; decide)
  | zeroExponent h0 hs id => exact absurd h0 (by rw [hc]; decide)
  | exponentNine h0 hz hn h10 hs id => exact absurd h0 (by rw [hc]; decide)
  | trailingZero h0 he hf hz hq hs hM hx => exact absurd h0 (by rw [hc]; decide)
  | supplementary h0 hx hn => exact absurd h0 (by rw [hc]; decide)
  | rope h0 id hw => exact absurd h0 (by rw [hc]; decide)

theorem differs_f {d : Directive} {e : Entry} (hc : d.conv = ch! 'f') (h : JavaDiffers d e) :
    e = .ref .null ∨
    (∃ b, IsDouble e b ∧ ¬ finite b ∧ fracBits b = 0 ∧ ¬ negative b ∧ ch! ' ' ∈ d.flags ∧
      (ch! '-' ∈ d.flags ∨ d.width.width ≤ 8)) ∨
    (∃ scale id, e = .ref (.bigDecimal 0 scale id) ∧ scale < 0 ∧
      ¬ (ch! '0' ∈ d.flags ∧ d.longZero scale ≤ d.width.width)) := by
  cases h with
  | null h0 => exact .inl rfl
  | zero h0 hf hx hz => exact absurd h0 (by rw [hc]; decide)
  | negative h0 hv id => exact absurd h0 (by rw [hc]; decide)
  | signedBig h0 hv hp id => exact absurd h0 (by rw [hc]; decide)
  | infinity h0 he hf hb hn hs hw => exact .inr (.inl ⟨_, he, hf, hb, hn, hs, hw⟩)
  | longZero h0 hs hw id => exact .inr (.inr ⟨_, _, rfl, hs, hw⟩)
  | zeroExponent h0 hs id => exact absurd h0 (by rw [hc]; decide)
  | exponentNine h0 hz hn h10 hs id => exact absurd h0 (by rw [hc]; decide)
  | trailingZero h0 he hf hz hq hs hM hx => exact absurd h0 (by rw [hc]; decide)
  | supplementary h0 hx hn => exact absurd h0 (by rw [hc]; decide)
  | rope h0 id hw => exact absurd h0 (by rw [hc]; decide)

theorem differs_e {d : Directive} {e : Entry} (hc : d.conv = ch! 'e') (h : JavaDiffers d e) :
    e = .ref .null ∨
    (∃ b, IsDouble e b ∧ ¬ finite b ∧ fracBits b = 0 ∧ ¬ negative b ∧ ch! ' ' ∈ d.flags ∧
      (ch! '-' ∈ d.flags ∨ d.width.width ≤ 8)) ∨
    (∃ scale id, e = .ref (.bigDecimal 0 scale id) ∧ scale ≠ 0) ∨
    (∃ u scale id n M, e = .ref (.bigDecimal u scale id) ∧ u ≠ 0 ∧ DigitCount u.natAbs n ∧
      min (d.places + 1) n = 10 ∧ Significant (bigValue u.natAbs scale) (d.places + 1) M 9) := by
  cases h with
  | null h0 => exact .inl rfl
  | zero h0 hf hx hz => exact absurd h0 (by rw [hc]; decide)
  | negative h0 hv id => exact absurd h0 (by rw [hc]; decide)
  | signedBig h0 hv hp id => exact absurd h0 (by rw [hc]; decide)
  | infinity h0 he hf hb hn hs hw => exact .inr (.inl ⟨_, he, hf, hb, hn, hs, hw⟩)
  | longZero h0 hs hw id => exact absurd h0 (by rw [hc]; decide)
  | zeroExponent h0 hs id => exact .inr (.inr (.inl ⟨_, _, rfl, hs⟩))
  | exponentNine h0 hz hn h10 hs id => exact .inr (.inr (.inr ⟨_, _, _, _, _, rfl, hz, hn, h10, hs⟩))
  | trailingZero h0 he hf hz hq hs hM hx => exact absurd h0 (by rw [hc]; decide)
  | supplementary h0 hx hn => exact absurd h0 (by rw [hc]; decide)
  | rope h0 id hw => exact absurd h0 (by rw [hc]; decide)

theorem differs_g {d : Directive} {e : Entry} (hc : d.conv = ch! 'g') (h : JavaDiffers d e) :
    e = .ref .null ∨
    (∃ b, IsDouble e b ∧ ¬ finite b ∧ fracBits b = 0 ∧ ¬ negative b ∧ ch! ' ' ∈ d.flags ∧
      (ch! '-' ∈ d.flags ∨ d.width.width ≤ 8)) ∨
    (∃ b q M x, IsDouble e b ∧ finite b ∧ magnitude b ≠ 0 ∧ DecimalOf b q ∧
      Significant q d.digits M x ∧ M % 10 = 0 ∧ x ≠ d.digits - 1) := by
  cases h with
  | null h0 => exact .inl rfl
  | zero h0 hf hx hz => exact absurd h0 (by rw [hc]; decide)
  | negative h0 hv id => exact absurd h0 (by rw [hc]; decide)
  | signedBig h0 hv hp id => exact absurd h0 (by rw [hc]; decide)
  | infinity h0 he hf hb hn hs hw => exact .inr (.inl ⟨_, he, hf, hb, hn, hs, hw⟩)
  | longZero h0 hs hw id => exact absurd h0 (by rw [hc]; decide)
  | zeroExponent h0 hs id => exact absurd h0 (by rw [hc]; decide)
  | exponentNine h0 hz hn h10 hs id => exact absurd h0 (by rw [hc]; decide)
  | trailingZero h0 he hf hz hq hs hM hx => exact .inr (.inr ⟨_, _, _, _, he, hf, hz, hq, hs, hM, hx⟩)
  | supplementary h0 hx hn => exact absurd h0 (by rw [hc]; decide)
  | rope h0 id hw => exact absurd h0 (by rw [hc]; decide)

theorem differs_c {d : Directive} {e : Entry} (hc : d.conv = ch! 'c') (h : JavaDiffers d e) :
    e = .ref .null ∨
    (∃ x : Integral, x.Given e ∧ 0x10000 ≤ x.value) := by
  cases h with
  | null h0 => exact .inl rfl
  | zero h0 hf hx hz => exact absurd h0 (by rw [hc]; decide)
  | negative h0 hv id => exact absurd h0 (by rw [hc]; decide)
  | signedBig h0 hv hp id => exact absurd h0 (by rw [hc]; decide)
  | infinity h0 he hf hb hn hs hw => exact absurd h0 (by rw [hc]; decide)
  | longZero h0 hs hw id => exact absurd h0 (by rw [hc]; decide)
  | zeroExponent h0 hs id => exact absurd h0 (by rw [hc]; decide)
  | exponentNine h0 hz hn h10 hs id => exact absurd h0 (by rw [hc]; decide)
  | trailingZero h0 he hf hz hq hs hM hx => exact absurd h0 (by rw [hc]; decide)
  | supplementary h0 hx hn => exact .inr ⟨_, hx, hn⟩
  | rope h0 id hw => exact absurd h0 (by rw [hc]; decide)

theorem differs_s {d : Directive} {e : Entry} (hc : d.conv = ch! 's') (h : JavaDiffers d e) :
    (∃ q id, e = .ref (.seq q id) ∧ d.width.width - reportedLength q d.prec.precision ≠
      d.width.width - (cut d.prec.precision q.text).length) := by
  cases h with
  | null h0 => exact absurd h0 (by rw [hc]; decide)
  | zero h0 hf hx hz => exact absurd h0 (by rw [hc]; decide)
  | negative h0 hv id => exact absurd h0 (by rw [hc]; decide)
  | signedBig h0 hv hp id => exact absurd h0 (by rw [hc]; decide)
  | infinity h0 he hf hb hn hs hw => exact absurd h0 (by rw [hc]; decide)
  | longZero h0 hs hw id => exact absurd h0 (by rw [hc]; decide)
  | zeroExponent h0 hs id => exact absurd h0 (by rw [hc]; decide)
  | exponentNine h0 hz hn h10 hs id => exact absurd h0 (by rw [hc]; decide)
  | trailingZero h0 he hf hz hq hs hM hx => exact absurd h0 (by rw [hc]; decide)
  | supplementary h0 hx hn => exact absurd h0 (by rw [hc]; decide)
  | rope h0 id hw => exact ⟨_, _, rfl, hw⟩


theorem rule_null {jdk : JdkEnv} {env : DateEnv} {d : Directive} (hc : d.conv ∈ js! "doxfegc") (t : JStr) :
    Verdict jdk env d (.ref .null) t := by
  have hdiff : JavaDiffers d (.ref .null) := by
    refine .null ?_
    revert hc; generalize d.conv = c; intro hc; simp at hc ⊢; omega
  by_cases h1 : d.conv ∈ js! "diuox"
  · exact .refused (.noInteger h1 (.other .null)) hdiff
  by_cases h2 : d.conv ∈ floatConvs
  · exact .refused (.noFloat h2 (.other .null)) hdiff
  have h3 : d.conv = ch! 'c' := by
    revert hc h1 h2; generalize d.conv = c; intro hc h1 h2; simp [floatConvs] at hc h1 h2 ⊢; omega
  have := Prints.char (jdk := jdk) (env := env) h3 (CharReading.number StarReading.null (by rintro s ⟨⟩) (by rintro t s id ⟨⟩))
  exact .refused this hdiff

theorem rule_integer {jdk : JdkEnv} {env : DateEnv} {d : Directive} (hd : d.JavaOk) {e : Entry}
    (hc : d.conv = ch! 'd') {x : Integral} (hx : x.Given e) {ds : JStr} (hs : Shortest 10 x.value.natAbs ds) :
    Verdict jdk env d e (d.field (d.sign (x.value < 0)) ds) := by
  have hp := no_prec hd (by rw [hc]; decide)
  refine .same (.signed (.inl hc) (.given hx) ?_) ?_
  · rw [hp]
    have := dText_signed (flagSet d.flags) d.width.width none x.value
    rw [← signed_agree this hs]
    exact this
  · intro h
    have := differs_d hc h
    subst this
    cases hx

theorem radix_conv {d : Directive} {b : Nat} (hc : (d.conv, b) ∈ radixConvs) :
    ∃ c : UConv, c ≠ .u ∧ d.conv = c.char ∧ b = c.base ∧ d.conv ∈ js! "oxX" := by
  simp only [radixConvs, List.mem_cons, Prod.mk.injEq, List.not_mem_nil, or_false] at hc
  rcases hc with ⟨h1, h2⟩ | ⟨h1, h2⟩
  · exact ⟨.o, by decide, h1, h2, by rw [h1]; decide⟩
  · exact ⟨.x, by decide, h1, h2, by rw [h1]; decide⟩

theorem differs_ox {d : Directive} {e : Entry} {c : UConv} (hu : c ≠ .u) (hc : d.conv = c.char) (h : JavaDiffers d e) :
    e = .ref .null ∨ (ch! '#' ∈ d.flags ∧ ∃ x : Integral, x.Given e ∧ x.value = 0) ∨
    (∃ v id, e = .ref (.bigInteger v id) ∧ v < 0) ∨ (∃ v id, e = .ref (.bigInteger v id) ∧ ch! '+' ∈ d.flags) := by
  cases c with
  | u => exact absurd rfl hu
  | o => exact differs_o hc h
  | x => exact differs_x hc h

theorem rule_unsigned {jdk : JdkEnv} {env : DateEnv} {d : Directive} (hd : d.JavaOk) {e : Entry} {b : Nat}
    (hr : (d.conv, b) ∈ radixConvs) {x : Integral} (hx : x.Given e) {n : Nat} (hn : x.javaUnsigned = some (n : Int))
    {ds : JStr} (hs : Shortest b n ds) : Verdict jdk env d e (d.field d.radix ds) := by
  obtain ⟨c, hu, hc, rfl, hm⟩ := radix_conv hr
  have hp := no_prec hd (by revert hm; generalize d.conv = c; intro hc; simp at hc ⊢; omega)
  obtain ⟨n1, n2⟩ := javaUnsigned_eq hn
  have ht := uText_unsigned c (flagSet d.flags) d.width.width none n
  have hpr : Prints jdk env d e _ := .unsigned hc (.given hx) n1 (by rw [hp]; exact ht)
  by_cases h0 : ch! '#' ∈ d.flags ∧ n = 0
  · refine .other hpr (.zero hm h0.1 hx (n2.1 h0.2)) ?_
    intro he
    have := congrArg (List.count 48) he
    rw [count_upper, count_upper] at this
    obtain ⟨h1, rfl⟩ := h0
    exact unsigned_zero hc hu hd.sides ht hs h1 this
  · have he := unsigned_agree hc hu ht hs h0
    rw [he] at hpr
    refine .same hpr ?_
    intro h
    rcases differs_ox hu hc h with h | ⟨h1, y, h2, h3⟩ | ⟨v, id, h, _⟩ | ⟨v, id, h, _⟩
    · subst h; cases hx
    · obtain rfl := given_unique hx h2
      exact h0 ⟨h1, n2.2 h3⟩
    all_goals
      subst h
      cases hx
      cases hn

theorem rule_bigUnsigned {jdk : JdkEnv} {env : DateEnv} {d : Directive} (hd : d.JavaOk) {b : Nat}
    (hr : (d.conv, b) ∈ radixConvs) (hsp : ch! ' ' ∉ d.flags) (v : Int) (id : Identity)
    {ds : JStr} (hs : Shortest b v.natAbs ds) :
    Verdict jdk env d (.ref (.bigInteger v id)) (d.field (d.sign (v < 0) ++ d.radix) ds) := by
  obtain ⟨c, hu, hc, rfl, hm⟩ := radix_conv hr
  have hp := no_prec hd (by revert hm; generalize d.conv = c; intro hc; simp at hc ⊢; omega)
  have hx : (Integral.big v).Given (.ref (.bigInteger v id)) := .big v id
  by_cases hv : v < 0
  · exact .refused (.negative hc (.given hx) (by simp [Integral.unsigned, hv])) (.negative hm hv id)
  · have ht := uText_unsigned c (flagSet d.flags) d.width.width none v.toNat
    have hpr : Prints jdk env d (.ref (.bigInteger v id)) _ :=
      .unsigned (n := v.toNat) hc (.given hx) (by simp [Integral.unsigned, hv]) (by rw [hp]; exact ht)
    have hna : v.natAbs = v.toNat := by omega
    rw [hna] at hs
    by_cases hpl : ch! '+' ∈ d.flags
    · refine .other hpr (.signedBig hm (by omega) hpl id) ?_
      intro he
      have h1 := unsigned_no_plus ht
      rw [he] at h1
      apply h1
      rw [List.mem_map]
      refine ⟨43, mem_field_pre ?_, by decide⟩
      simp [Directive.sign, signText, hv, flagSet, hpl]
    · have hsg : d.sign (v < 0) = [] := by
        simp [Directive.sign, signText, hv, flagSet, hpl, hsp]
      rw [hsg, List.nil_append]
      by_cases h0 : ch! '#' ∈ d.flags ∧ v = 0
      · obtain ⟨h1, rfl⟩ := h0
        refine .other hpr (.zero hm h1 hx rfl) ?_
        intro he
        have := congrArg (List.count 48) he
        rw [count_upper, count_upper] at this
        exact unsigned_zero hc hu hd.sides ht hs h1 this
      · have he := unsigned_agree hc hu ht hs (fun h => h0 ⟨h.1, by have := h.2; omega⟩)
        rw [he] at hpr
        refine .same hpr ?_
        intro h
        rcases differs_ox hu hc h with h | ⟨h1, y, h2, h3⟩ | ⟨w, i, h, h1⟩ | ⟨w, i, h, h1⟩
        · cases h
        · obtain rfl := given_unique hx h2
          exact h0 ⟨h1, h3⟩
        · cases h; exact hv h1
        · exact hpl h1

/-! ### Floating point -/

theorem float_conv {c : JChar} (h : c ∈ js! "feg") : c ∈ floatConvs := by
  simp [floatConvs] at h ⊢; omega

theorem padded_upper (d : Directive) (s : JStr) : (d.padded s).map Spec.upper = d.padded (s.map Spec.upper) := by
  rw [← field_pad, field_upper, ← field_pad]; rfl

theorem sign_plus {d : Directive} (hs : ¬ (ch! '+' ∈ d.flags ∧ ch! ' ' ∈ d.flags)) :
    d.sign false = if ch! ' ' ∈ d.flags then js! " " else if ch! '+' ∈ d.flags then js! "+" else [] := by
  unfold Directive.sign signText
  rw [plus_eq, space_eq]
  by_cases h1 : ch! '+' ∈ d.flags <;> by_cases h2 : ch! ' ' ∈ d.flags <;> simp [h1, h2]
  exact hs ⟨h1, h2⟩

theorem rule_nonFinite {jdk : JdkEnv} {env : DateEnv} {d : Directive} (hd : d.JavaOk) {e : Entry}
    (hc : d.conv ∈ js! "feg") {b : BitVec 64} (he : IsDouble e b) (hf : ¬ finite b) :
    Verdict jdk env d e (d.padded (d.javaName b)) := by
  have hpr : Prints jdk env d e _ := .floating (float_conv hc) (.double he) (.nonFinite hf)
  by_cases hq : fracBits b = 0 ∧ ¬ negative b ∧ ch! ' ' ∈ d.flags
  · obtain ⟨h1, h2, h3⟩ := hq
    have hnp : ch! '+' ∉ d.flags := fun h => hd.signs ⟨h, h3⟩
    have e1 : nonFiniteName b (decide (ch! '+' ∈ d.flags)) = js! "Infinity" := by
      simp [nonFiniteName, h1, h2, hnp]
    have e2 : d.javaName b = 32 :: js! "Infinity" := by
      unfold Directive.javaName
      rw [if_neg (by simpa using h1), decide_eq_false h2, sign_plus hd.signs, if_pos h3]; rfl
    rw [e1] at hpr
    rw [e2]
    by_cases hw : ch! '-' ∈ d.flags ∨ d.width.width ≤ 8
    · refine .other hpr (.infinity ?_ he hf h1 h2 h3 hw) ?_
      · revert hc; generalize d.conv = c; intro hc; simp at hc ⊢; omega
      · intro heq
        rw [padded_upper, padded_upper, ← field_pad, ← field_pad] at heq
        have e3 : (32 :: js! "Infinity").map Spec.upper = 32 :: js! "INFINITY" := by decide
        have e4 : (js! "Infinity").map Spec.upper = js! "INFINITY" := by decide
        rw [e3, e4, field_blank _ _ (by decide) (by decide), left_eq] at heq
        have h8 : (js! "INFINITY").length = 8 := rfl
        rw [h8] at heq
        rcases hw with hw | hw
        · simp [hw] at heq
        · omega
    · push Not at hw
      have heq : d.padded (js! "Infinity") = d.padded (32 :: js! "Infinity") := by
        rw [← field_pad, ← field_pad, field_blank _ _ (by decide) (by decide), left_eq]
        have h8 : (js! "Infinity").length = 8 := rfl
        rw [h8]
        exact ⟨decide_eq_false hw.1, hw.2⟩
      rw [heq] at hpr
      refine .same hpr ?_
      have no : ∀ b', IsDouble e b' → ¬ finite b' → fracBits b' = 0 → ¬ negative b' → ch! ' ' ∈ d.flags →
        ¬ (ch! '-' ∈ d.flags ∨ d.width.width ≤ 8) := by
        intro b' _ _ _ _ _ h
        rcases h with h | h
        · exact hw.1 h
        · omega
      intro h
      simp only [List.mem_cons, List.not_mem_nil, or_false] at hc
      rcases hc with hc | hc | hc
      · rcases differs_f hc h with rfl | ⟨b', g1, g2, g3, g4, g5, g6⟩ | ⟨_, _, rfl, _⟩
        · cases he
        · exact no b' g1 g2 g3 g4 g5 g6
        · cases he
      · rcases differs_e hc h with rfl | ⟨b', g1, g2, g3, g4, g5, g6⟩ | ⟨_, _, rfl, _⟩ | ⟨_, _, _, _, _, rfl, _⟩
        · cases he
        · exact no b' g1 g2 g3 g4 g5 g6
        · cases he
        · cases he
      · rcases differs_g hc h with rfl | ⟨b', g1, g2, g3, g4, g5, g6⟩ | ⟨b', _, _, _, g1, g2, _⟩
        · cases he
        · exact no b' g1 g2 g3 g4 g5 g6
        · exact hf (isDouble_unique he g1 ▸ g2)
  · have e1 : nonFiniteName b (decide (ch! '+' ∈ d.flags)) = d.javaName b := by
      unfold nonFiniteName Directive.javaName
      by_cases h1 : fracBits b = 0
      · rw [if_neg (not_not.2 h1), if_neg (not_not.2 h1)]
        by_cases h2 : negative b
        · rw [if_pos h2, decide_eq_true h2]; rfl
        · have h3 : ch! ' ' ∉ d.flags := fun h => hq ⟨h1, h2, h⟩
          rw [if_neg h2, decide_eq_false h2, sign_plus hd.signs, if_neg h3]
          by_cases h4 : ch! '+' ∈ d.flags <;> simp [h4]
      · rw [if_pos h1, if_pos h1]
    rw [e1] at hpr
    refine .same hpr ?_
    have no : ∀ b', IsDouble e b' → fracBits b' = 0 → ¬ negative b' → ch! ' ' ∈ d.flags → False := by
      intro b' g1 g2 g3 g4
      obtain rfl := isDouble_unique he g1
      exact hq ⟨g2, g3, g4⟩
    intro h
    simp only [List.mem_cons, List.not_mem_nil, or_false] at hc
    rcases hc with hc | hc | hc
    · rcases differs_f hc h with rfl | ⟨b', g1, g2, g3, g4, g5, g6⟩ | ⟨_, _, rfl, _⟩
      · cases he
      · exact no b' g1 g3 g4 g5
      · cases he
    · rcases differs_e hc h with rfl | ⟨b', g1, g2, g3, g4, g5, g6⟩ | ⟨_, _, rfl, _⟩ | ⟨_, _, _, _, _, rfl, _⟩
      · cases he
      · exact no b' g1 g3 g4 g5
      · cases he
      · cases he
    · rcases differs_g hc h with rfl | ⟨b', g1, g2, g3, g4, g5, g6⟩ | ⟨b', _, _, _, g1, g2, _⟩
      · cases he
      · exact no b' g1 g3 g4 g5
      · exact hf (isDouble_unique he g1 ▸ g2)

theorem rule_fixed {jdk : JdkEnv} {env : DateEnv} {d : Directive} {e : Entry} (hc : d.conv = ch! 'f')
    {b : BitVec 64} (he : IsDouble e b) (hf : finite b) {q : ℚ} (hq : DecimalOf b q) {body : JStr}
    (hb : FixedText (halfUp q d.places) d.places (ch! '#' ∈ d.flags) body) :
    Verdict jdk env d e (d.field (d.sign (negative b)) body) := by
  refine .same (.floating (float_conv (by rw [hc]; decide)) (.double he)
    (.fixed hc hf hq (by rw [alternate_eq]; exact hb))) ?_
  intro h
  rcases differs_f hc h with rfl | ⟨b', g1, g2, _⟩ | ⟨_, _, rfl, _⟩
  · cases he
  · exact g2 (isDouble_unique he g1 ▸ hf)
  · cases he

theorem exponent_zero {ex : JStr} (h : ExponentText 0 ex) : ex = js! "+00" := by
  obtain ⟨ds, h1, rfl⟩ := h
  obtain rfl := shortest_zero (by omega) (by omega) h1
  rfl

theorem decimal_zero {b : BitVec 64} {q : ℚ} (hq : DecimalOf b q) :
    (magnitude b = 0 ∧ q = 0) ∨ (magnitude b ≠ 0 ∧ q ≠ 0 ∧ JavaDecimal b q) := by
  rcases hq with h | ⟨h, hj⟩
  · exact .inl h
  · exact .inr ⟨h, ne_of_gt (javaDecimal_pos hj), hj⟩

theorem rule_scientific {jdk : JdkEnv} {env : DateEnv} {d : Directive} {e : Entry} (hc : d.conv = ch! 'e')
    {b : BitVec 64} (he : IsDouble e b) (hf : finite b) {q : ℚ} (hq : DecimalOf b q) {body : JStr}
    (hb : JavaScientific q d.places (ch! '#' ∈ d.flags) body) :
    Verdict jdk env d e (d.field (d.sign (negative b)) body) := by
  have no : ¬ JavaDiffers d e := by
    intro h
    rcases differs_e hc h with rfl | ⟨b', g1, g2, _⟩ | ⟨_, _, rfl, _⟩ | ⟨_, _, _, _, _, rfl, _⟩
    · cases he
    · exact g2 (isDouble_unique he g1 ▸ hf)
    · cases he
    · cases he
  refine .same (.floating (float_conv (by rw [hc]; decide)) (.double he) ?_) no
  obtain ⟨M, x, m, ex, h1, h2, h3, rfl⟩ := hb
  rw [← alternate_eq] at h2
  rcases decimal_zero hq with ⟨hz, h0⟩ | ⟨hz, h0, hj⟩
  · rw [if_pos h0] at h1
    obtain ⟨rfl, rfl⟩ := h1
    obtain rfl := exponent_zero h3
    exact .scientificZero hc hf hz h2
  · rw [if_neg h0] at h1
    exact .scientific hc hf hz hj h1 h2 h3

theorem general_facts {dates : DateSyntax} {d : Directive} (h : d.Ok dates) (hp : d.Plain) (hc : d.conv = ch! 'g')
    {b : BitVec 64} (hf : finite b) (hz : magnitude b ≠ 0) : ∃ last n q, JavaDecimal b q ∧ LastPlace b last ∧
      DigitsDownTo q last n := by
  have := floatText_double sampleDateEnv (jdk := sampleJdk) h hp (by rw [hc]; decide) b
  generalize printf _ _ _ _ = r at this
  cases this with
  | nonFinite h => exact absurd hf h
  | fixed h => exact absurd h (by rw [hc]; decide)
  | scientificZero h => exact absurd h (by rw [hc]; decide)
  | scientific h => exact absurd h (by rw [hc]; decide)
  | generalZero _ _ h => exact absurd h hz
  | general _ _ _ hq _ hl hn => exact ⟨_, _, _, hq, hl, hn⟩
  | hexExact h => exact absurd h (by rw [hc]; decide)
  | hexRounded h => exact absurd h (by rw [hc]; decide)

theorem rule_general {dates : DateSyntax} {jdk : JdkEnv} {env : DateEnv} {d : Directive} (ho : d.Ok dates)
    (hd : d.JavaOk) {e : Entry} (hc : d.conv = ch! 'g') (ha : ch! '#' ∉ d.flags)
    {b : BitVec 64} (he : IsDouble e b) (hf : finite b) (hz : magnitude b ≠ 0) {q : ℚ} (hq : DecimalOf b q) {body : JStr}
    (hb : JavaGeneral q d.digits body) : Verdict jdk env d e (d.field (d.sign (negative b)) body) := by
  obtain ⟨last, n, q', hj', hl, hn⟩ := general_facts ho hd.plain hc hf hz
  rcases decimal_zero hq with ⟨h0, _⟩ | ⟨_, _, hj⟩
  · exact absurd h0 hz
  obtain rfl := JavaDecimal.unique hf hz hj hj'
  obtain ⟨M, x, hs, hb⟩ := hb
  have halt : (flagSet d.flags).alternate = false := by rw [alternate_eq]; exact decide_eq_false ha
  have hP : 1 ≤ d.digits := le_max_left ..
  -- the text of the library
  have finish : ∀ body', GeneralText d.digits n false M x body' →
      (M % 10 ≠ 0 ∨ x = d.digits - 1 → body' = body) →
      (M % 10 = 0 → x ≠ d.digits - 1 → (d.field (d.sign (negative b)) body').map Spec.upper ≠
        (d.field (d.sign (negative b)) body).map Spec.upper) →
      Verdict jdk env d e (d.field (d.sign (negative b)) body) := by
    intro body' h1 h2 h3
    have hpr : Prints jdk env d e _ := .floating (float_conv (by rw [hc]; decide)) (.double he)
      (.general hc hf hz hj hs hl hn (by rw [halt]; exact h1))
    by_cases hcase : M % 10 = 0 ∧ x ≠ d.digits - 1
    · exact .other hpr (.trailingZero (by rw [hc]; decide) he hf hz hq hs hcase.1 hcase.2) (h3 hcase.1 hcase.2)
    · obtain rfl := h2 (by by_cases h : M % 10 = 0
                           · exact .inr (by by_contra h'; exact hcase ⟨h, h'⟩)
                           · exact .inl h)
      refine .same hpr ?_
      intro h
      rcases differs_g hc h with rfl | ⟨b', g1, g2, _⟩ | ⟨b', q', M', x', g1, _, _, g4, g5, g6, g7⟩
      · cases he
      · exact g2 (isDouble_unique he g1 ▸ hf)
      · obtain rfl := isDouble_unique he g1
        rcases decimal_zero g4 with ⟨h0, _⟩ | ⟨_, _, hj2⟩
        · exact absurd h0 hz
        obtain rfl := JavaDecimal.unique hf hz hj hj2
        obtain ⟨rfl, rfl⟩ := Significant.unique hs g5
        exact hcase ⟨g6, g7⟩
  by_cases hx : -4 ≤ x ∧ x < d.digits
  · rw [if_pos hx] at hb
    obtain ⟨body', hm⟩ := minimalText_exists M (-(((d.digits : Int) - 1 - x).toNat : Int))
    have hk : (((d.digits : Int) - 1 - x).toNat : Int) = (d.digits : Int) - 1 - x := by omega
    refine finish body' ?_ ?_ ?_
    · unfold GeneralText
      rw [if_pos hx, if_neg (by decide)]
      rw [hk] at hm
      rw [show x - ((d.digits : Int) - 1) = -((d.digits : Int) - 1 - x) by ring]
      exact hm
    · intro h
      exact (fixed_minimal hb hm).1 (by rcases h with h | h
                                        · exact .inr h
                                        · exact .inl (by omega))
    · intro h1 h2
      have := minimal_ne (d := d) (n := negative b) (x := []) hb hm (by omega) h1 (by simp)
      simpa using this
  · rw [if_neg hx] at hb
    obtain ⟨m, ex, h1, h2, rfl⟩ := hb
    obtain ⟨m', hm⟩ := minimalText_exists M (-((d.digits - 1 : Nat) : Int))
    refine finish (m' ++ ch! 'e' :: ex) ?_ ?_ ?_
    · unfold GeneralText
      rw [if_neg hx]
      refine ⟨m', ex, rfl, h2, ?_⟩
      rw [if_neg (by decide)]
      rw [Nat.cast_sub hP] at hm
      exact_mod_cast hm
    · intro h
      rw [(fixed_minimal h1 hm).1]
      rcases h with h | h
      · exact .inr h
      · exfalso; omega
    · intro h3 _
      refine minimal_ne h1 hm ?_ h3 ?_
      · intro h0
        have h1 := hs.1
        have h2 := hs.2.1
        have hP1 : d.digits = 1 := by omega
        rw [hP1] at h1 h2
        omega
      · intro c hc
        rcases List.mem_cons.1 hc with rfl | hc
        · decide
        · have := exponent_low h2 c hc; omega

theorem bigValue_zero {u scale : Int} : bigValue u.natAbs scale = 0 ↔ u = 0 := by
  unfold bigValue
  have : (10 : ℚ) ^ (-scale) ≠ 0 := zpow_ne_zero _ (by norm_num)
  rw [mul_eq_zero, or_iff_left this, Nat.cast_eq_zero, Int.natAbs_eq_zero]

theorem fixed_zero {p : Nat} {alt : Bool} {body : JStr} (h : FixedText 0 p alt body) :
    body = 48 :: fraction alt (List.replicate p 48) := by
  refine h.unique ⟨[48], List.replicate p 48, rfl, ⟨by simp, ?_⟩, .inl rfl, ?_, by simp, ?_⟩
  · intro c hc
    rw [List.mem_singleton.1 hc]; exact isDigit_zero
  · intro c hc
    rw [(List.mem_replicate.1 hc).2]; exact isDigit_zero
  · have : ∀ k, valueIn 10 (List.replicate k 48) = 0 := by
      intro k
      induction k with
      | zero => rfl
      | succ k ih =>
        rw [List.replicate_succ', valueIn_append, ih]; decide
    have h0 : valueIn 10 [48] = 0 := by decide
    rw [valueIn_append, this, h0]; simp

theorem halfUp_zero_value (p : Int) : halfUp 0 p = 0 := by
  unfold halfUp; norm_num

theorem bigFixed_no {d : Directive} (hc : d.conv = ch! 'f') {u scale : Int} {id : Identity}
    (hz : u ≠ 0 ∨ 0 ≤ scale ∨ (ch! '0' ∈ d.flags ∧ d.longZero scale ≤ d.width.width)) :
    ¬ JavaDiffers d (.ref (.bigDecimal u scale id)) := by
  intro h
  rcases differs_f hc h with h | ⟨b', g1, _⟩ | ⟨s, i, h, g1, g2⟩
  · cases h
  · cases g1
  · cases h
    rcases hz with h | h | h
    · exact h rfl
    · omega
    · exact g2 h

theorem rule_bigFixed {jdk : JdkEnv} {env : DateEnv} {d : Directive} (hd : d.JavaOk) (hc : d.conv = ch! 'f')
    (u scale : Int) (id : Identity) {body : JStr}
    (hb : FixedText (halfUp (bigValue u.natAbs scale) d.places) d.places (ch! '#' ∈ d.flags) body) :
    Verdict jdk env d (.ref (.bigDecimal u scale id)) (d.field (d.sign (u < 0)) body) := by
  by_cases hz : u ≠ 0 ∨ 0 ≤ scale
  · refine .same (.floating (float_conv (by rw [hc]; decide)) (.big u scale id)
      (.bigFixed hc hz (by rw [alternate_eq]; exact hb))) (bigFixed_no hc (hz.imp_right .inl))
  · push Not at hz
    obtain ⟨rfl, hs⟩ := hz
    rw [bigValue_zero.2 rfl, halfUp_zero_value] at hb
    obtain rfl := fixed_zero hb
    have hpr : Prints jdk env d (.ref (.bigDecimal 0 scale id)) _ :=
      .floating (float_conv (by rw [hc]; decide)) (.big 0 scale id) (.bigFixedZero hc hs)
    have h0 : decide ((0 : Int) < 0) = false := rfl
    rw [alternate_eq] at hpr
    rw [h0]
    have hlong : d.longZero scale = (d.sign false).length + (1 + (-scale).toNat +
      (fraction (decide (ch! '#' ∈ d.flags)) (List.replicate d.places 48)).length) := rfl
    have hsg : signText (flagSet d.flags) false = d.sign false := rfl
    rw [hsg] at hpr
    generalize hfr : fraction (decide (ch! '#' ∈ d.flags)) (List.replicate d.places 48) = F at *
    obtain ⟨k, hk⟩ : ∃ k, (-scale).toNat = k + 1 := ⟨(-scale).toNat - 1, by omega⟩
    rw [hk] at hpr hlong
    by_cases hw : ch! '0' ∈ d.flags ∧ d.longZero scale ≤ d.width.width
    · have hleft : ch! '-' ∉ d.flags := fun h => hd.sides ⟨h, hw.1⟩
      have heq : d.field (d.sign false) (List.replicate (1 + (k + 1)) 48 ++ F) = d.field (d.sign false) (48 :: F) := by
        unfold Directive.field Spec.field
        rw [left_eq, zero_eq, decide_eq_false hleft, decide_eq_true hw.1]
        simp only [Bool.false_eq_true, if_false, if_true, List.append_assoc]
        rw [← List.append_assoc (List.replicate _ 48), List.replicate_append_replicate]
        have : (48 :: F : JStr) = List.replicate 1 48 ++ F := rfl
        rw [this, ← List.append_assoc (List.replicate _ 48) (List.replicate 1 48), List.replicate_append_replicate]
        congr 3
        simp only [List.length_append, List.length_replicate]
        omega
      rw [heq] at hpr
      exact .same hpr (bigFixed_no hc (.inr (.inr hw)))
    · refine .other hpr (.longZero hc hs hw id) ?_
      intro he
      have := congrArg (List.count 48) he
      rw [count_upper, count_upper] at this
      unfold Directive.field at this
      rw [count_field, count_field, zero_eq, left_eq] at this
      simp only [List.count_append, List.count_replicate_self, List.count_cons_self, List.length_append,
        List.length_replicate, List.length_cons, decide_eq_true_eq, decide_eq_false_iff_not] at this
      by_cases h0 : ch! '0' ∈ d.flags
      · have hleft : ch! '-' ∉ d.flags := fun h => hd.sides ⟨h, h0⟩
        have hlt : ¬ d.longZero scale ≤ d.width.width := fun h => hw ⟨h0, h⟩
        rw [if_pos ⟨h0, hleft⟩, if_pos ⟨h0, hleft⟩] at this
        omega
      · rw [if_neg (fun h => h0 h.1), if_neg (fun h => h0 h.1)] at this
        omega

theorem rule_bigScientific {jdk : JdkEnv} {env : DateEnv} {d : Directive} (hc : d.conv = ch! 'e')
    (u scale : Int) (id : Identity) {body : JStr}
    (hb : JavaScientific (bigValue u.natAbs scale) d.places (ch! '#' ∈ d.flags) body) :
    Verdict jdk env d (.ref (.bigDecimal u scale id)) (d.field (d.sign (u < 0)) body) := by
  obtain ⟨M, x, m, ex, h1, h2, h3, rfl⟩ := hb
  have hm : d.conv ∈ floatConvs := float_conv (by rw [hc]; decide)
  have h2' := h2
  rw [← alternate_eq] at h2'
  by_cases hz : u = 0
  · subst hz
    rw [if_pos (bigValue_zero.2 rfl)] at h1
    obtain ⟨rfl, rfl⟩ := h1
    obtain ⟨ex', hx'⟩ := exponentText_exists (-scale)
    have hpr : Prints jdk env d (.ref (.bigDecimal 0 scale id)) _ :=
      .floating hm (.big 0 scale id) (.bigScientificZero hc h2' hx')
    by_cases hs : scale = 0
    · subst hs
      obtain rfl := h3.unique hx'
      refine .same hpr ?_
      intro h
      rcases differs_e hc h with h | ⟨b', g1, _⟩ | ⟨_, _, h, g⟩ | ⟨_, _, _, _, _, h, g, _⟩
      · cases h
      · cases g1
      · cases h; exact g rfl
      · cases h; exact g rfl
    · refine .other hpr (.zeroExponent (by rw [hc]; decide) hs id) ?_
      refine scientific_ne (fixed_low h2) (exponent_low hx') (exponent_low h3) ?_
      rintro rfl
      obtain ⟨ds, g1, g2⟩ := hx'
      obtain rfl := exponent_zero h3
      have hv : valueIn 10 (List.replicate (2 - ds.length) 48 ++ ds) = 0 := by
        rw [← (List.cons.inj g2).2]; decide
      rw [valueIn_append] at hv
      have := g1.2.2
      omega
  · have hv : ¬ bigValue u.natAbs scale = 0 := fun h => hz (bigValue_zero.1 h)
    rw [if_neg hv] at h1
    obtain ⟨n, hn⟩ := Spec.DigitCount.exists u.natAbs
    by_cases h9 : min (d.places + 1) n = 10 ∧ x = 9
    · obtain ⟨h10, rfl⟩ := h9
      have hpr : Prints jdk env d (.ref (.bigDecimal u scale id)) _ :=
        .floating hm (.big u scale id) (.bigScientific hc hz hn h1 h2' (ex := js! "+9")
          (by unfold BigExponentText; rw [if_pos ⟨h10, rfl⟩]))
      refine .other hpr (.exponentNine (by rw [hc]; decide) hz hn h10 h1 id) ?_
      refine scientific_ne (fixed_low h2) (by decide) (exponent_low h3) ?_
      have : ExponentText 9 (js! "+09") := ⟨js! "9", by unfold Shortest IsNumeral NoExtraZero; decide, by decide⟩
      rw [h3.unique this]
      decide
    · have hpr : Prints jdk env d (.ref (.bigDecimal u scale id)) _ :=
        .floating hm (.big u scale id) (.bigScientific hc hz hn h1 h2' (ex := ex)
          (by unfold BigExponentText; rw [if_neg h9]; exact h3))
      refine .same hpr ?_
      intro h
      rcases differs_e hc h with h | ⟨b', g1, _⟩ | ⟨_, _, h, g⟩ | ⟨_, _, _, _, _, h, _, g1, g2, g3⟩
      · cases h
      · cases g1
      · cases h; exact hz rfl
      · cases h
        obtain rfl := hn.unique g1
        obtain ⟨_, rfl⟩ := Significant.unique h1 g3
        exact h9 ⟨g2, rfl⟩

/-! ### Text -/

theorem rule_character {jdk : JdkEnv} {env : DateEnv} {d : Directive} {e : Entry} (hc : d.conv = ch! 'c')
    {x : Integral} (hx : x.Given e) {n : Nat} (hn : x.value = n) (h : n ≤ 0x10FFFF) :
    Verdict jdk env d e (d.padded (utf16 n)) := by
  have hpr : Prints jdk env d e (.ok (d.padded [n % 65536])) := by
    by_cases hch : ∃ v, x = .char v
    · obtain ⟨v, rfl⟩ := hch
      have := Prints.char (jdk := jdk) (env := env) hc (.char hx)
      have hv : v.toNat = n := by have : (v.toNat : Int) = n := hn; omega
      have hlt := v.isLt
      rw [hv] at hlt this
      rw [Nat.mod_eq_of_lt (by omega)]
      exact this
    · have hnar : Narrows x.value n := by
        refine ⟨?_, ?_, 0, by omega⟩ <;> norm_num [minInt, maxInt] <;> omega
      have := Prints.char (jdk := jdk) (env := env) hc (.number (.integral hx hnar) (by rintro s hs; cases hs <;> cases hx)
        (by rintro t s id rfl; cases hx))
      have hcast : ((n : Int) % 65536).toNat = n % 65536 := by omega
      simpa [Except.map, hcast] using this
  by_cases hbig : n < 0x10000
  · have e1 : utf16 n = [n % 65536] := by
      unfold utf16
      rw [if_pos hbig, Nat.mod_eq_of_lt (by omega)]
    rw [e1]
    refine .same hpr ?_
    intro h
    rcases differs_c hc h with rfl | ⟨y, g1, g2⟩
    · cases hx
    · obtain rfl := given_unique hx g1
      omega
  · refine .other hpr (.supplementary hc hx (by omega)) ?_
    intro he
    rw [padded_upper, padded_upper, ← field_pad, ← field_pad] at he
    have := congrArg (fun s => (s.filter (· != 32)).length) he
    simp only [field_visible] at this
    obtain ⟨hi, lo, g1, g2, e1⟩ : ∃ hi lo, 0xD800 ≤ hi ∧ 0xD800 ≤ lo ∧ utf16 n = [hi, lo] :=
      ⟨0xD800 + (n - 0x10000) / 0x400, 0xDC00 + (n - 0x10000) % 0x400, by omega, by omega, by
        unfold utf16; rw [if_neg hbig]⟩
    have up : ∀ c, 0xD800 ≤ c → (Spec.upper c != 32) = true := by
      intro c hc
      have : Spec.upper c ≠ 32 := by unfold Spec.upper; split_ifs <;> omega
      simpa using this
    rw [e1] at this
    simp only [List.map_cons, List.map_nil] at this
    rw [List.filter_cons_of_pos (a := Spec.upper hi) (up _ g1),
      List.filter_cons_of_pos (a := Spec.upper lo) (up _ g2)] at this
    have hle := List.length_filter_le (· != 32) [Spec.upper (n % 65536)]
    simp at this hle
    omega

theorem rule_text {jdk : JdkEnv} {env : DateEnv} {d : Directive} {e : Entry} (hc : d.conv = ch! 's') {s : JStr}
    (hr : TextReading jdk e (.ok s)) : Verdict jdk env d e (d.padded (cut d.prec.precision s)) := by
  refine .same (.text hc hr) ?_
  intro h
  obtain ⟨q, id, rfl, _⟩ := differs_s hc h
  cases hr with
  | shows h => cases h with
    | number h => cases h
    | bool h => cases h
    | char h => cases h
  | float h => cases h
  | double h => cases h

theorem rule_rope {jdk : JdkEnv} {env : DateEnv} {d : Directive} (hc : d.conv = ch! 's') (q : Seq) (id : Identity) :
    Verdict jdk env d (.ref (.seq q id)) (d.padded (cut d.prec.precision q.text)) := by
  have hpr := Prints.rope (jdk := jdk) (env := env) hc (q := q) id
  have e1 : d.padded (cut d.prec.precision q.text) = padWith (ch! '-' ∈ d.flags) false
      (d.width.width - (cut d.prec.precision q.text).length) [] (cut d.prec.precision q.text) := by
    rw [← field_pad, left_eq]
    simp [Spec.field, padWith]
  rw [e1]
  by_cases hw : d.width.width - reportedLength q d.prec.precision =
      d.width.width - (cut d.prec.precision q.text).length
  · rw [hw] at hpr
    refine .same hpr ?_
    intro h
    obtain ⟨q', id', h, g⟩ := differs_s hc h
    cases h
    exact g hw
  · refine .other hpr (.rope (by rw [hc]; decide) id hw) ?_
    intro he
    have := congrArg List.length he
    rw [List.length_map, List.length_map, padWith_length, padWith_length] at this
    omega

/-! ### Upper case -/

theorem pairs_ok {d : Directive} (hd : d.JavaOk) {lo : JChar} (hc : (lo, d.conv) ∈ casePairs) :
    (lo, d.conv) ∈ [(ch! 'x', ch! 'X'), (ch! 'e', ch! 'E'), (ch! 'g', ch! 'G'), (ch! 's', ch! 'S')] := by
  have h := hd.conv
  generalize d.conv = c at *
  simp only [casePairs, List.mem_cons, Prod.mk.injEq, List.not_mem_nil, or_false] at hc h ⊢
  omega

theorem low_ok {d : Directive} (hd : d.JavaOk) {lo : JChar} (hc : (lo, d.conv) ∈ casePairs) :
    ({ d with conv := lo } : Directive).JavaOk := by
  have hm := pairs_ok hd hc
  refine ⟨⟨hd.plain.width, hd.plain.prec⟩, hd.digits, hd.signs, hd.sides, hd.room, ?_⟩
  have h := hd.conv
  simp only [List.mem_cons, Prod.mk.injEq, List.not_mem_nil, or_false] at hm
  rcases hm with ⟨rfl, h2⟩ | ⟨rfl, h2⟩ | ⟨rfl, h2⟩ | ⟨rfl, h2⟩ <;> rw [h2] at h <;> simp at h ⊢ <;> assumption

theorem differs_low {d : Directive} (hd : d.JavaOk) {lo : JChar} (hc : (lo, d.conv) ∈ casePairs) (e : Entry) :
    JavaDiffers { d with conv := lo } e ↔ JavaDiffers d e := by
  have hm := pairs_ok hd hc
  have key : ∀ s : JStr, (s = js! "doxXfeEgGc" ∨ s = js! "oxX" ∨ s = js! "feEgG" ∨ s = js! "eE" ∨ s = js! "gG" ∨
      s = js! "sS") → (lo ∈ s ↔ d.conv ∈ s) := by
    intro s hs
    generalize d.conv = c at hm
    revert hs
    have : ∀ p ∈ [(ch! 'x', ch! 'X'), (ch! 'e', ch! 'E'), (ch! 'g', ch! 'G'), (ch! 's', ch! 'S')],
        ∀ s ∈ [js! "doxXfeEgGc", js! "oxX", js! "feEgG", js! "eE", js! "gG", js! "sS"], (p.1 ∈ s ↔ p.2 ∈ s) := by decide
    intro hs
    exact this _ hm s (by simpa using hs)
  have eqs : (lo = ch! 'f' ↔ d.conv = ch! 'f') ∧ (lo = ch! 'c' ↔ d.conv = ch! 'c') := by
    generalize d.conv = c at hm
    have : ∀ p ∈ [(ch! 'x', ch! 'X'), (ch! 'e', ch! 'E'), (ch! 'g', ch! 'G'), (ch! 's', ch! 'S')],
        (p.1 = ch! 'f' ↔ p.2 = ch! 'f') ∧ (p.1 = ch! 'c' ↔ p.2 = ch! 'c') := by decide
    exact this _ hm
  constructor
  · intro h
    cases h with
    | null h => exact .null ((key _ (by decide)).1 h)
    | zero h h1 h2 h3 => exact .zero ((key _ (by decide)).1 h) h1 h2 h3
    | negative h h1 id => exact .negative ((key _ (by decide)).1 h) h1 id
    | signedBig h h1 h2 id => exact .signedBig ((key _ (by decide)).1 h) h1 h2 id
    | infinity h h1 h2 h3 h4 h5 h6 => exact .infinity ((key _ (by decide)).1 h) h1 h2 h3 h4 h5 h6
    | longZero h h1 h2 id => exact .longZero (eqs.1.1 h) h1 h2 id
    | zeroExponent h h1 id => exact .zeroExponent ((key _ (by decide)).1 h) h1 id
    | exponentNine h h1 h2 h3 h4 id => exact .exponentNine ((key _ (by decide)).1 h) h1 h2 h3 h4 id
    | trailingZero h h1 h2 h3 h4 h5 h6 h7 => exact .trailingZero ((key _ (by decide)).1 h) h1 h2 h3 h4 h5 h6 h7
    | supplementary h h1 h2 => exact .supplementary (eqs.2.1 h) h1 h2
    | rope h id h1 => exact .rope ((key _ (by decide)).1 h) id h1
  · intro h
    cases h with
    | null h => exact .null ((key _ (by decide)).2 h)
    | zero h h1 h2 h3 => exact .zero ((key _ (by decide)).2 h) h1 h2 h3
    | negative h h1 id => exact .negative ((key _ (by decide)).2 h) h1 id
    | signedBig h h1 h2 id => exact .signedBig (d := { d with conv := lo }) ((key _ (by decide)).2 h) h1 h2 id
    | infinity h h1 h2 h3 h4 h5 h6 => exact .infinity ((key _ (by decide)).2 h) h1 h2 h3 h4 h5 h6
    | longZero h h1 h2 id => exact .longZero (d := { d with conv := lo }) (eqs.1.2 h) h1 h2 id
    | zeroExponent h h1 id => exact .zeroExponent ((key _ (by decide)).2 h) h1 id
    | exponentNine h h1 h2 h3 h4 id =>
      exact .exponentNine (d := { d with conv := lo }) ((key _ (by decide)).2 h) h1 h2 h3 h4 id
    | trailingZero h h1 h2 h3 h4 h5 h6 h7 =>
      exact .trailingZero (d := { d with conv := lo }) ((key _ (by decide)).2 h) h1 h2 h3 h4 h5 h6 h7
    | supplementary h h1 h2 => exact .supplementary (eqs.2.2 h) h1 h2
    | rope h id h1 => exact .rope (d := { d with conv := lo }) ((key _ (by decide)).2 h) id h1

theorem map_upper_twice (s : JStr) : (s.map Spec.upper).map Spec.upper = s.map Spec.upper := by
  rw [List.map_map]
  exact List.map_congr_left fun c _ => upper_upper c

theorem low_text {dates : DateSyntax} {d : Directive} (h : d.Ok dates) {lo : JChar} (hc : (lo, d.conv) ∈ casePairs)
    (hd : d.JavaOk) : ({ d with conv := lo } : Directive).Ok dates := by
  have hm := pairs_ok hd hc
  have key : ∀ p ∈ [(ch! 'x', ch! 'X'), (ch! 'e', ch! 'E'), (ch! 'g', ch! 'G'), (ch! 's', ch! 'S')],
      p.1 ∈ convChars ∧ p.1 ≠ ch! '%' ∧ ¬ (p.2 = ch! 't' ∨ p.2 = ch! 'T') := by decide
  have k := key _ hm
  exact ⟨h.flagsOk, h.noRepeat, h.width, h.prec, k.1, fun p hp => absurd (h.date p hp).1 k.2.2, fun hc => absurd hc k.2.1⟩

theorem rule_g_flags {d : Directive} (hd : d.JavaOk) (hc : d.conv = ch! 'g') : ch! '#' ∉ d.flags := by
  rcases hd.conv with h | h | h | h | h | h
  · exact h.2.1
  · exact absurd h.1 (by rw [hc]; decide)
  · exact absurd h (by rw [hc]; decide)
  · exact h.2
  · exact absurd h.1 (by rw [hc]; decide)
  · exact absurd h.1 (by rw [hc]; decide)

theorem verdict {dates : DateSyntax} {jdk : JdkEnv} (env : DateEnv) {d : Directive} {e : Entry} {t : JStr}
    (h : JavaPrints jdk d e t) : d.Ok dates → d.JavaOk → Verdict jdk env d e t := by
  induction h with
  | null hc hp => intro _ _; exact rule_null hc _
  | integer hc hx ht hs => intro _ hd; exact rule_integer hd hc hx hs
  | unsigned hc hp hs hx hn hds => intro _ hd; exact rule_unsigned hd hc hx hn hds
  | bigUnsigned hc hs v id hds => intro _ hd; exact rule_bigUnsigned hd hc hs v id hds
  | nonFinite hc he hf => intro _ hd; exact rule_nonFinite hd hc he hf
  | fixed hc he hf hq hb => intro _ _; exact rule_fixed hc he hf hq hb
  | scientific hc he hf hq hb => intro _ _; exact rule_scientific hc he hf hq hb
  | general hc he hf hz hq hb => intro ho hd; exact rule_general ho hd hc (rule_g_flags hd hc) he hf hz hq hb
  | bigFixed hc u scale id hb => intro _ hd; exact rule_bigFixed hd hc u scale id hb
  | bigScientific hc u scale id hb => intro _ _; exact rule_bigScientific hc u scale id hb
  | character hc hx ht hn hle => intro _ _; exact rule_character hc hx hn hle
  | text hc hr ha => intro _ _; exact rule_text hc hr
  | rope hc q id => intro _ _; exact rule_rope hc q id
  | @upper d e lo hc s ha h ih =>
    intro ho hd
    obtain ⟨r, h1, h2, h3⟩ := ih (low_text ho hc hd) (low_ok hd hc)
    rw [differs_low hd hc] at h2 h3
    refine ⟨_, .upper hc h1, fun h => by rw [h2 h]; rfl, fun h he => ?_⟩
    cases r with
    | error err => cases he
    | ok s' =>
      refine h3 h ?_
      have : (s'.map Spec.upper).map Spec.upper = (s.map Spec.upper).map Spec.upper := Except.ok.inj he
      rw [map_upper_twice, map_upper_twice] at this
      exact congrArg Except.ok this

end JavaFormatter

open JavaFormatter

/-- **C98.** For a directive that `String.format` takes as well, and an argument for which its documentation says
what is printed, the library prints that text exactly if the case is not on the list of differences. -/
theorem C98_directive (dates : DateSyntax) (env : DateEnv) (jdk : JdkEnv) (d : Directive) (h : d.Ok dates)
    (hd : d.JavaOk) (e : Entry) (he : Covered e) (t : JStr) (ht : JavaPrints jdk d e t) :
    printf dates env d.text [e.toTraits jdk] = .ok t ↔ ¬ JavaDiffers d e := by
  obtain ⟨r, h1, h2, h3⟩ := verdict (dates := dates) env ht h hd
  rw [C56_directive dates env jdk d h hd.plain e he r h1]
  refine ⟨fun hr hn => ?_, h2⟩
  subst hr
  exact h3 hn rfl

/-- **C98 (what Java prints is determined).** Where the two agree, the documentation allows one text only. -/
theorem C98_determined (dates : DateSyntax) (jdk : JdkEnv) (d : Directive) (h : d.Ok dates)
    (hd : d.JavaOk) (e : Entry) (he : Covered e) (hn : ¬ JavaDiffers d e) (t t' : JStr) (ht : JavaPrints jdk d e t)
    (ht' : JavaPrints jdk d e t') : t = t' := by
  have h1 := (C98_directive dates sampleDateEnv jdk d h hd e he t ht).2 hn
  have h2 := (C98_directive dates sampleDateEnv jdk d h hd e he t' ht').2 hn
  rw [h1] at h2
  exact Except.ok.inj h2

/-- **C98 (whole format strings).** A format string whose directives Java takes as well prints what `String.format`
prints, for arguments without any of the differences; arguments left over are ignored by both. -/
theorem C98_format (dates : DateSyntax) (env : DateEnv) (jdk : JdkEnv) (f : JStr) (ps : List Piece)
    (h : Reading dates f ps) (es : List Entry) (he : ∀ e ∈ es, Covered e) (t : JStr) (ht : JavaFormats jdk ps es t)
    (hn : ∀ p ∈ (directivesOf ps).zip es, ¬ JavaDiffers p.1 p.2) :
    printf dates env f (es.map (·.toTraits jdk)) = .ok t := by
  refine C56_sound dates env jdk f ps h es he _ ?_
  have hok : ∀ d, .dir d ∈ ps → d.Ok dates := fun d hd => h.ok _ hd
  clear h he
  induction ht with
  | done es => exact .done es
  | lit s _ ih =>
    exact .lit s (ih hn fun d hd => hok d (List.mem_cons_of_mem _ hd))
  | percent _ ih =>
    exact .percent (ih hn fun d hd => hok d (List.mem_cons_of_mem _ hd))
  | dir hd hp _ ih =>
    obtain ⟨r, h1, h2, _⟩ := verdict (dates := dates) env hp (hok _ (by simp)) hd
    have h3 := h2 (hn (_, _) (by simp [directivesOf]))
    subst h3
    refine .prints (.plain hd.plain _) h1 (ih ?_ fun d hd => hok d (List.mem_cons_of_mem _ hd))
    intro p hp
    exact hn p (by simp only [directivesOf, List.filterMap_cons, List.zip_cons_cons]; exact List.mem_cons_of_mem _ hp)

/-- **C98 (`%#g` for `%g`).** In the plain style, `%#g` of the library is `%g` of Java, as long as there are digits
after the point. -/
theorem C98_sharp (dates : DateSyntax) (env : DateEnv) (jdk : JdkEnv) (d : Directive) (h : d.Ok dates)
    (hp : d.Plain) (hc : d.conv = ch! 'g') (ha : ch! '#' ∉ d.flags) (e : Entry) (b : BitVec 64) (he : IsDouble e b)
    (hf : finite b) (hz : magnitude b ≠ 0) (q : ℚ) (hq : JavaDecimal b q) (M : Nat) (x : Int)
    (hs : Significant q d.digits M x) (h4 : -4 ≤ x) (hx : x < d.digits - 1) (body : JStr)
    (hb : FixedText M ((d.digits : Int) - 1 - x).toNat false body) :
    JavaPrints jdk d e (d.field (d.sign (negative b)) body) ∧
    printf dates env ({ d with flags := ch! '#' :: d.flags } : Directive).text [e.toTraits jdk] =
      .ok (d.field (d.sign (negative b)) body) := by
  refine ⟨.general hc he hf hz (.inr ⟨hz, hq⟩) ⟨M, x, hs, by rw [if_pos ⟨h4, by omega⟩]; exact hb⟩, ?_⟩
  obtain ⟨last, n, q', hj', hl, hn⟩ := general_facts h hp hc hf hz
  obtain rfl := JavaDecimal.unique hf hz hq hj'
  have hok : ({ d with flags := ch! '#' :: d.flags } : Directive).Ok dates :=
    ⟨by intro c hc
        rcases List.mem_cons.1 hc with rfl | hc
        · decide
        · exact h.flagsOk c hc,
      List.nodup_cons.2 ⟨ha, h.noRepeat⟩, h.width, h.prec, h.conv, h.date, fun h => absurd (hc.symm.trans h) (by decide)⟩
  have hcov : Covered e := by
    cases he with
    | prim bits => exact ⟨trivial, trivial, by rintro u s n ⟨⟩⟩
    | boxed bits id => exact ⟨trivial, trivial, by rintro u s n ⟨⟩⟩
  have hpr : Prints jdk env { d with flags := ch! '#' :: d.flags } e _ :=
    .floating (by show d.conv ∈ floatConvs; rw [hc]; decide) (.double he)
      (.general (d := { d with flags := ch! '#' :: d.flags }) (body := body) hc hf hz hq hs hl hn ?_)
  · rw [C56_directive dates env jdk _ hok ⟨hp.width, hp.prec⟩ e hcov _ hpr]
    simp [Directive.field, Directive.sign, flagSet, signText]
  · unfold GeneralText
    have hpl : -4 ≤ x ∧ x < (({ d with flags := ch! '#' :: d.flags } : Directive).digits : Int) :=
      ⟨h4, by have : ({ d with flags := ch! '#' :: d.flags } : Directive).digits = d.digits := rfl
              rw [this]; omega⟩
    rw [if_pos hpl, if_pos (by simp [flagSet])]
    obtain ⟨ip, fp, h1, h2, h3, h5, h6, h7⟩ := hb
    refine ⟨ip, fp, ?_, h2, h3, h5, h6, h7⟩
    have hne : fp ≠ [] := by
      rintro rfl
      simp at h6; omega
    rw [h1]
    simp [fraction, hne]

/-! ### Examples, and a witness for each difference -/

def jd (fl : JStr) (w p : Num) (c : JChar) : Directive := ⟨fl, w, p, c, none⟩

example : (jd (js! "#0") (.digits (js! "8")) .absent (ch! 'x')).JavaOk :=
  ⟨⟨by simp [jd], by simp [jd]⟩, by simp [jd], by decide, by decide, by simp [jd],
    .inr (.inl ⟨by decide, rfl⟩)⟩

-- `%#08x` of -1 as a byte: both print `0x0000ff`
example : JavaPrints sampleJdk (jd (js! "#0") (.digits (js! "8")) .absent (ch! 'x')) (.prim (.byte 0xFF#8))
    (js! "0x0000ff") :=
  .unsigned (b := 16) (by decide) (by decide) (by decide) (.prim (x := .byte 0xFF#8) rfl) (n := 255) (by decide)
    (ds := js! "ff") (by unfold Shortest IsNumeral NoExtraZero; decide)
example : printf sampleDates sampleDateEnv (js! "%#08x") [(Entry.prim (.byte 0xFF#8)).toTraits sampleJdk] =
    .ok (js! "0x0000ff") := rfl

-- `%#x` of zero
example : JavaPrints sampleJdk (jd (js! "#") .absent .absent (ch! 'x')) (.prim (.int 0#32)) (js! "0x0") :=
  .unsigned (b := 16) (by decide) (by decide) (by decide) (.prim (x := .int 0#32) rfl) (n := 0) (by decide)
    (ds := js! "0") (by unfold Shortest IsNumeral NoExtraZero; decide)
example : JavaDiffers (jd (js! "#") .absent .absent (ch! 'x')) (.prim (.int 0#32)) :=
  .zero (by decide) (by decide) (.prim (x := .int 0#32) rfl) (by decide)
example : printf sampleDates sampleDateEnv (js! "%#x") [(Entry.prim (.int 0#32)).toTraits sampleJdk] =
    .ok (js! "0") := rfl

-- `%x` of a negative `BigInteger`
example : JavaPrints sampleJdk (jd [] .absent .absent (ch! 'x')) (.ref (.bigInteger (-255) someId)) (js! "-ff") :=
  .bigUnsigned (b := 16) (by decide) (by decide) _ _ (ds := js! "ff")
    (by unfold Shortest IsNumeral NoExtraZero; decide)
example : printf sampleDates sampleDateEnv (js! "%x") [(Entry.ref (.bigInteger (-255) someId)).toTraits sampleJdk] =
    .error (refused .negativeUnsigned) := rfl
-- and `%+x` of a positive one
example : JavaPrints sampleJdk (jd (js! "+") .absent .absent (ch! 'x')) (.ref (.bigInteger 255 someId)) (js! "+ff") :=
  .bigUnsigned (b := 16) (by decide) (by decide) _ _ (ds := js! "ff")
    (by unfold Shortest IsNumeral NoExtraZero; decide)
example : printf sampleDates sampleDateEnv (js! "%+x") [(Entry.ref (.bigInteger 255 someId)).toTraits sampleJdk] =
    .ok (js! "ff") := rfl

-- `% f` of infinity; with a width above 8 the blank cannot be seen
example : JavaPrints sampleJdk (jd (js! " ") .absent .absent (ch! 'f')) (.prim (.double 0x7FF0000000000000#64))
    (js! " Infinity") :=
  .nonFinite (by decide) (.prim _) (by unfold finite; decide)
example : printf sampleDates sampleDateEnv (js! "% f|% 9f") (List.replicate 2
    ((Entry.prim (.double 0x7FF0000000000000#64)).toTraits sampleJdk)) = .ok (js! "Infinity| Infinity") := rfl

-- `%e` of a zero with a scale
example : JavaPrints sampleJdk (jd [] .absent (.digits (js! "1")) (ch! 'e')) (.ref (.bigDecimal 0 2 someId))
    (js! "0.0e+00") :=
  .bigScientific (d := jd [] .absent (.digits (js! "1")) (ch! 'e')) rfl 0 2 someId (body := js! "0.0e+00")
    ⟨0, 0, js! "0.0", js! "+00", by rw [if_pos (by simp [bigValue])]; decide,
    ⟨js! "0", js! "0", by decide, by unfold IsNumeral; decide, by unfold NoExtraZero; decide, by decide, by decide,
      by decide⟩,
    ⟨js! "0", by unfold Shortest IsNumeral NoExtraZero; decide, by decide⟩, by decide⟩
example : printf sampleDates sampleDateEnv (js! "%.1e") [(Entry.ref (.bigDecimal 0 2 someId)).toTraits sampleJdk] =
    .ok (js! "0.0e-02") := rfl

-- `%f` of a zero with a negative scale; with the `0` flag and enough width there is no difference
example : JavaDiffers (jd [] .absent .absent (ch! 'f')) (.ref (.bigDecimal 0 (-3) someId)) :=
  .longZero rfl (by decide) (by decide) _
example : ¬ JavaDiffers (jd (js! "0") (.digits (js! "20")) .absent (ch! 'f')) (.ref (.bigDecimal 0 (-3) someId)) :=
  bigFixed_no rfl (.inr (.inr (by decide)))
example : printf sampleDates sampleDateEnv (js! "%.1f|%08.1f") (List.replicate 2
    ((Entry.ref (.bigDecimal 0 (-3) someId)).toTraits sampleJdk)) = .ok (js! "0000.0|000000.0") := rfl

-- `%.9e` of a number with ten digits
example : printf sampleDates sampleDateEnv (js! "%.9e")
    [(Entry.ref (.bigDecimal 1234567890 0 someId)).toTraits sampleJdk] = .ok (js! "1.234567890e+9") := rfl

-- `%g`: Java writes `0.100000`
example : printf sampleDates sampleDateEnv (js! "%g|%#g") (List.replicate 2
    ((Entry.prim (.double 0x3FB999999999999A#64)).toTraits sampleJdk)) = .ok (js! "0.1|0.100000") := by decide +kernel

-- `%c` of a supplementary code point
example : JavaPrints sampleJdk (jd [] .absent .absent (ch! 'c')) (.prim (.int 0x1F600#32)) [0xD83D, 0xDE00] :=
  .character rfl (.prim (x := .int 0x1F600#32) rfl) trivial (n := 0x1F600) (by decide) (by decide)
example : printf sampleDates sampleDateEnv (js! "%c") [(Entry.prim (.int 0x1F600#32)).toTraits sampleJdk] =
    .ok [0xF600] := rfl

-- `null`
example : JavaPrints sampleJdk (jd [] (.digits (js! "6")) .absent (ch! 'd')) (.ref .null) (js! "  null") :=
  .null (by decide) rfl
example : printf sampleDates sampleDateEnv (js! "%6d") [(Entry.ref .null).toTraits sampleJdk] =
    .error (refused .nullToInt) := rfl

-- a whole format string
example : JavaFormats sampleJdk [.lit (js! "n="), .dir (jd (js! "-") (.digits (js! "3")) .absent (ch! 'd')), .percent]
    [.prim (.int 7#32), .ref .null] (js! "n=7  %") :=
  .lit _ (.dir ⟨⟨by simp [jd], by simp [jd]⟩, by simp [jd], by decide, by decide, by simp [jd], .inl ⟨rfl, by decide, rfl⟩⟩
    (.integer rfl (.prim (x := .int 7#32) rfl) trivial (ds := js! "7") (by unfold Shortest IsNumeral NoExtraZero; decide))
    (.percent (.done _)))

end FastPrintf
