/-
The integer conversions against the C rules.
-/
import Verif.Proofs.Star
import Verif.Spec.Arguments
import Verif.Spec.CPrintf

namespace FastPrintf
open Spec DefaultAppender

/-! ### Directives without stars -/

theorem Spec.Directive.Plain.width_ne {d : Directive} (h : d.Plain) : d.context.width ≠ PRECEDING := by
  have e2 : PRECEDING = -2147483648 := rfl
  cases hx : d.width with
  | absent => simp only [Directive.context, hx]; decide
  | star => exact absurd hx h.width
  | digits ds => simp only [Directive.context, hx, Num.value]; omega

theorem Spec.Directive.Plain.prec_ne {d : Directive} (h : d.Plain) : d.context.precision ≠ PRECEDING := by
  have e2 : PRECEDING = -2147483648 := rfl
  cases hx : d.prec with
  | absent => simp only [Directive.context, hx]; decide
  | star => exact absurd hx h.prec
  | digits ds => simp only [Directive.context, hx, Num.value]; omega

theorem Spec.Directive.Plain.width_eq {d : Directive} (h : d.Plain) :
    d.context.width.toNat = d.width.width := by
  cases hx : d.width with
  | absent => simp only [Directive.context, hx]; decide
  | star => exact absurd hx h.width
  | digits ds => simp only [Directive.context, hx, Num.value, Num.width]; omega

theorem Spec.Directive.Plain.prec_eq {d : Directive} (h : d.Plain) :
    SeqFormatter.precOf d.context = d.prec.precision := by
  have e1 : UNSET = -1 := rfl
  unfold SeqFormatter.precOf
  cases hx : d.prec with
  | absent => simp only [Directive.context, hx, Num.value, Num.precision]; rfl
  | star => exact absurd hx h.prec
  | digits ds =>
    simp only [Directive.context, hx, Num.precision]
    have hn : (Num.digits ds).value ≠ UNSET := by simp only [Num.value]; omega
    rw [if_neg hn]; simp [Num.value]

theorem Spec.Directive.Plain.precOK {d : Directive} (h : d.Plain) : SeqFormatter.PrecOK d.context := by
  cases hx : d.prec with
  | absent => left; simp only [Directive.context, hx]; rfl
  | star => exact absurd hx h.prec
  | digits ds => right; simp only [Directive.context, hx, Num.value]; omega

theorem Spec.Directive.Plain.prec_zero {d : Directive} (h : d.Plain) :
    d.context.precision = 0 ↔ d.prec.precision = some 0 := by
  cases hx : d.prec with
  | absent => simp [Directive.context, hx, Num.value, Num.precision, UNSET]
  | star => exact absurd hx h.prec
  | digits ds => simp [Directive.context, hx, Num.value, Num.precision]

theorem printf_plain {dates : DateSyntax} {d : Directive} (h : d.Ok dates) (hp : d.Plain)
    (env : DateEnv) (v : Traits) (rest : List Traits) :
    printf dates env d.text (v :: rest) =
      formatterFor env (convOf d.conv) d.context v >>= fun s => s.appendToSB [] := by
  rw [printf_dir h, append_noStar hp.width_ne, afterWidth_noStar hp.prec_ne]
  simp only [valueStep]
  cases formatterFor env (convOf d.conv) d.context v <;> rfl

theorem printf_plain_ok {dates : DateSyntax} {d : Directive} (h : d.Ok dates) (hp : d.Plain)
    {env : DateEnv} {v : Traits} {s : Seq} (hs : formatterFor env (convOf d.conv) d.context v = .ok s)
    (hw : s.Sane) (rest : List Traits) : printf dates env d.text (v :: rest) = .ok s.text := by
  rw [printf_plain h hp, hs, bind_ok, Seq.appendToSB_ok hw]
  rfl

/-! ### What the integer wrappers say -/

/-- The digits in base `b` of the unsigned reading, or the exception when there is none. -/
def unsignedDigits (b : Nat) : Option Nat → Res JStr
  | some n => .ok (toRadix b n)
  | none => .error (.printf (.wrongType .negativeUnsigned))

/-- An `IntForm` that says the right thing about `v`, whose unsigned reading is `u` (if any). -/
structure IntForm.Means (f : IntForm) (v : Int) (u : Option Nat) : Prop where
  signum : f.signum = signumOf v
  dec : f.toDecimalString = .ok (toRadix 10 v.natAbs)
  hex : f.toHexString = unsignedDigits 16 u
  oct : f.toOctalString = unsignedDigits 8 u
  uns : f.toUnsignedDecimalString = unsignedDigits 10 u
  zero : ∀ n, u = some n → (v = 0 ↔ n = 0)
  neg : u = none → v < 0

theorem intToString_nonneg {v : Int} (h : 0 ≤ v) : intToString v = toRadix 10 v.natAbs := by
  unfold intToString natToString; rw [if_neg (by omega)]

theorem wrap32_eq {x : Int} (h : -2147483648 ≤ x ∧ x ≤ 2147483647) : wrap32 x = x := by
  unfold wrap32
  rw [Int.bmod_eq_of_le] <;> omega

theorem wrap64_eq {x : Int} (h : -9223372036854775808 ≤ x ∧ x ≤ 9223372036854775807) :
    wrap64 x = x := by
  unfold wrap64
  rw [Int.bmod_eq_of_le] <;> omega

theorem toInt_emod {n : Nat} (v : BitVec n) : (v.toInt % 2 ^ n).toNat = v.toNat := by
  rw [BitVec.toInt_eq_toNat_bmod]
  have : ((2 : Int) ^ n) = ((2 ^ n : Nat) : Int) := by simp
  rw [this, Int.bmod_emod, Int.emod_eq_of_lt (by omega) (by exact_mod_cast v.isLt)]
  simp

theorem toInt_zero_iff {n : Nat} (v : BitVec n) : v.toInt = 0 ↔ v.toNat = 0 := by
  constructor
  · intro h
    have := toInt_emod v
    rw [h] at this
    simpa using this.symm
  · intro h
    have : v = 0#n := BitVec.eq_of_toNat_eq (by simpa using h)
    rw [this]; simp

theorem mathAbs32_small {v : Int} (h : -2147483647 ≤ v ∧ v ≤ 2147483647) :
    intToString (mathAbs32 v) = toRadix 10 v.natAbs := by
  unfold mathAbs32
  split_ifs with hn
  · rw [wrap32_eq (by omega), intToString_nonneg (by omega)]
    congr 1; omega
  · exact intToString_nonneg (by omega)

theorem IntForm.ofByte_means (v : BitVec 8) : (IntForm.ofByte v).Means v.toInt (some v.toNat) where
  signum := rfl
  dec := by
    have h1 := v.toInt_lt; have h2 := v.le_toInt
    simp only [ofByte]
    rw [mathAbs32_small (by omega)]
  hex := rfl
  oct := rfl
  uns := rfl
  zero := by intro n hn; cases hn; exact toInt_zero_iff v
  neg := by simp

theorem IntForm.ofShort_means (v : BitVec 16) : (IntForm.ofShort v).Means v.toInt (some v.toNat) where
  signum := rfl
  dec := by
    have h1 := v.toInt_lt; have h2 := v.le_toInt
    simp only [ofShort]
    rw [mathAbs32_small (by omega)]
  hex := rfl
  oct := rfl
  uns := rfl
  zero := by intro n hn; cases hn; exact toInt_zero_iff v
  neg := by simp

theorem IntForm.ofInt_means (v : BitVec 32) : (IntForm.ofInt v).Means v.toInt (some v.toNat) where
  signum := rfl
  dec := by
    have h1 := v.toInt_lt; have h2 := v.le_toInt
    have e : intMin = -2147483648 := rfl
    simp only [ofInt]
    generalize v.toInt = x at *
    congr 1
    split_ifs
    · exact intToString_nonneg (by omega)
    · rw [wrap32_eq (by omega), intToString_nonneg (by omega)]; congr 1; omega
    · have : x = -2147483648 := by omega
      subst this; decide
  hex := rfl
  oct := rfl
  uns := rfl
  zero := by intro n hn; cases hn; exact toInt_zero_iff v
  neg := by simp

theorem IntForm.ofLong_means (v : BitVec 64) : (IntForm.ofLong v).Means v.toInt (some v.toNat) where
  signum := rfl
  dec := by
    have h1 := v.toInt_lt; have h2 := v.le_toInt
    simp only [ofLong]
    generalize v.toInt = x at *
    congr 1
    split_ifs
    · exact intToString_nonneg (by omega)
    · rw [wrap64_eq (by omega), intToString_nonneg (by omega)]; congr 1; omega
    · have : x = -9223372036854775808 := by omega
      subst this; decide
  hex := rfl
  oct := rfl
  uns := rfl
  zero := by intro n hn; cases hn; exact toInt_zero_iff v
  neg := by simp

theorem IntForm.ofBigInteger_means (v : Int) :
    (IntForm.ofBigInteger v).Means v (if v < 0 then none else some v.toNat) := by
  have hs : signumOf v < 0 ↔ v < 0 := by unfold signumOf; split_ifs <;> omega
  have hn : ¬ v < 0 → v.natAbs = v.toNat := by omega
  by_cases h : v < 0
  · simp only [if_pos h]
    refine ⟨rfl, rfl, ?_, ?_, ?_, by simp, fun _ => h⟩ <;>
      simp [ofBigInteger, nonNegativeOnly, unsignedDigits, hs, h]
  · simp only [if_neg h]
    refine ⟨rfl, rfl, ?_, ?_, ?_, ?_, by simp⟩
    · simp [ofBigInteger, nonNegativeOnly, unsignedDigits, hs, h, hn h]
    · simp [ofBigInteger, nonNegativeOnly, unsignedDigits, hs, h, hn h]
    · simp [ofBigInteger, nonNegativeOnly, unsignedDigits, hs, h, hn h]
    · intro n hn; cases hn; omega

/-- Every integral argument, however handed over, is read as its value. -/
theorem Spec.Integral.Given.means {x : Integral} {e : Entry} (h : x.Given e) (jdk : JdkEnv) :
    ∃ f, (e.toTraits jdk).asIntForm = .ok f ∧ f.Means x.value x.unsigned := by
  have prim : ∀ {p : Prim} (ref : RefSlot), x.prim? = some p →
      ∃ f, (p.traits jdk ref).asIntForm = .ok f ∧ f.Means x.value x.unsigned := by
    intro p ref hp
    cases x <;> simp only [Integral.prim?, Option.some.injEq, reduceCtorEq] at hp <;> subst hp
    · exact ⟨_, rfl, by simpa only [Integral.value, Integral.unsigned, toInt_emod] using IntForm.ofByte_means _⟩
    · exact ⟨_, rfl, by simpa only [Integral.value, Integral.unsigned, toInt_emod] using IntForm.ofShort_means _⟩
    · rename_i v
      refine ⟨_, rfl, ?_⟩
      have h1 := IntForm.ofInt_means (BitVec.ofNat 32 v.toNat)
      have h2 := v.isLt
      have h3 : (BitVec.ofNat 32 v.toNat).toNat = v.toNat := by
        rw [BitVec.toNat_ofNat]; omega
      have h4 : (BitVec.ofNat 32 v.toNat).toInt = v.toNat := by
        rw [BitVec.toInt_eq_toNat_bmod, h3, Int.bmod_eq_of_le] <;> omega
      rw [h3, h4] at h1
      exact h1
    · exact ⟨_, rfl, by simpa only [Integral.value, Integral.unsigned, toInt_emod] using IntForm.ofInt_means _⟩
    · exact ⟨_, rfl, by simpa only [Integral.value, Integral.unsigned, toInt_emod] using IntForm.ofLong_means _⟩
    · rename_i b
      cases b
      · exact ⟨_, rfl, IntForm.ofInt_means 0#32⟩
      · exact ⟨_, rfl, IntForm.ofInt_means 1#32⟩
  cases h with
  | prim hp => exact prim _ hp
  | boxed hp id => exact prim _ hp
  | big v id => exact ⟨_, rfl, IntForm.ofBigInteger_means v⟩

theorem shortest_toRadix {b : Nat} (h2 : 2 ≤ b) (h16 : b ≤ 16) (n : Nat) : Shortest b n (toRadix b n) :=
  ⟨toRadix_isNumeral h2 h16 n, toRadix_minimal h2 n, valueIn_toRadix h2 h16 n⟩

theorem Spec.Shortest.eq {b n : Nat} {s : JStr} (h : Shortest b n s) (h2 : 2 ≤ b) (h16 : b ≤ 16) :
    s = toRadix b n := by
  rw [← h.2.2, toRadix_unique h2 h16 h.1 h.2.1]

theorem signumOf_zero {v : Int} : signumOf v = 0 ↔ v = 0 := by
  unfold signumOf
  split_ifs with h1 h2
  · exact ⟨fun h => absurd h (by decide), fun h => by omega⟩
  · simp [h2]
  · simp [h2]

theorem signumOf_neg {v : Int} : signumOf v < 0 ↔ v < 0 := by
  unfold signumOf; split_ifs <;> omega

/-! ### `%d` -/

/-- The text of `%d`. -/
def dText (fl : Flags) (w : Nat) (p : Option Nat) (v : Int) : JStr :=
  if v = 0 ∧ p = some 0 then field fl.leftJustify false w [] (if fl.plus then js! "+" else [])
  else field fl.leftJustify (fl.zeroPad && p.isNone) w (signText fl (v < 0))
    (withPrecision p (v = 0) (toRadix 10 v.natAbs))

theorem d_means {ctx : FormatContext} (hp : SeqFormatter.PrecOK ctx) {f : IntForm} {v : Int}
    {u : Option Nat} (h : f.Means v u) :
    ∃ r, SeqFormatter.d ctx f = .ok r ∧ r.WF ∧
      r.text = dText ctx.flags ctx.width.toNat (SeqFormatter.precOf ctx) v := by
  obtain ⟨r, h1, h2, h3⟩ := SeqFormatter.d_ok hp h.dec (toRadix_ne_nil _ _)
  refine ⟨r, h1, h2, ?_⟩
  have e1 : UNSET = -1 := rfl
  have hz : ctx.precision = 0 ↔ SeqFormatter.precOf ctx = some 0 := by
    unfold SeqFormatter.precOf
    split_ifs with hu
    · simp; omega
    · rcases hp with hp | hp
      · exact absurd hp hu
      · simp; omega
  rw [h3, h.signum]
  simp only [signumOf_zero, signumOf_neg, hz, dText]

theorem dText_C (fl : Flags) (w : Nat) (p : Option Nat) (v : Int) :
    CSigned fl w p v (dText fl w p v) ↔
      ¬ (v = 0 ∧ p = some 0 ∧ fl.leadingSpace = true ∧ fl.plus = false ∧ w = 0) := by
  have key : CSigned fl w p v (dText fl w p v) ↔ dText fl w p v =
      field fl.leftJustify (fl.zeroPad && p.isNone) w (signText fl (v < 0))
        (withPrecision p (v = 0) (toRadix 10 v.natAbs)) := by
    constructor
    · rintro ⟨ds, h1, h2⟩
      rw [h1.eq (by omega) (by omega)] at h2
      exact h2
    · intro h
      exact ⟨_, shortest_toRadix (by omega) (by omega) _, h⟩
  rw [key]
  unfold dText
  by_cases h0 : v = 0 ∧ p = some 0
  · rw [if_pos h0]
    obtain ⟨rfl, rfl⟩ := h0
    have hwp : withPrecision (some 0) (decide ((0 : Int) = 0)) (toRadix 10 (0 : Int).natAbs) = [] := by
      simp [withPrecision]
    rw [hwp]
    simp only [lt_irrefl, decide_false, signText, Bool.false_eq_true, if_false, Option.isNone_some,
      Bool.and_false, true_and]
    cases fl.plus
    · cases hs : fl.leadingSpace
      · simp
      · simp only [Bool.false_eq_true, if_false, if_true, true_and]
        unfold field
        cases fl.leftJustify
        · simp only [Bool.false_eq_true, if_false, List.append_nil, List.length_nil, List.nil_append,
            List.length_singleton, Nat.add_zero, Nat.sub_zero]
          constructor
          · intro h hw
            subst hw; simp at h
          · intro hw
            have : List.replicate w (32 : Nat) = List.replicate (w - 1) 32 ++ [32] := by
              rw [← List.replicate_succ']; congr 1; omega
            exact this
        · simp only [if_true, List.append_nil, List.length_nil, List.nil_append,
            List.length_singleton, Nat.add_zero, Nat.sub_zero]
          constructor
          · intro h hw
            subst hw; simp at h
          · intro hw
            have : List.replicate w (32 : Nat) = [32] ++ List.replicate (w - 1) 32 := by
              rw [List.singleton_append, ← List.replicate_succ]; congr 1; omega
            exact this
    · simp [field]
  · rw [if_neg h0]
    constructor
    · intro _ hc; exact h0 ⟨hc.1, hc.2.1⟩
    · intro _; rfl

/-! ### Reading back -/

theorem trimSpaces_pad {a b : Nat} {core : JStr} (h1 : core.head? ≠ some 32)
    (h2 : core.getLast? ≠ some 32) (hne : core ≠ []) :
    trimSpaces (List.replicate a 32 ++ core ++ List.replicate b 32) = core := by
  have drop : ∀ (n : Nat) (t : JStr), t.head? ≠ some 32 → t ≠ [] →
      (List.replicate n 32 ++ t).dropWhile (· == 32) = t := by
    intro n t ht hn
    induction n with
    | zero =>
      cases t with
      | nil => exact absurd rfl hn
      | cons c t =>
        simp only [List.head?_cons, ne_eq, Option.some.injEq] at ht
        simp [ht]
    | succ n ih => simp [List.replicate_succ, ih]
  unfold trimSpaces
  rw [List.append_assoc, drop a _ (by rw [List.head?_append_of_ne_nil _ hne]; exact h1) (by simp [hne])]
  rw [List.reverse_append, List.reverse_replicate,
    drop b _ (by rw [List.head?_reverse]; exact h2) (by simp [hne]), List.reverse_reverse]

theorem field_shape (left zero : Bool) (w : Nat) (pre body : JStr) :
    ∃ a z b, field left zero w pre body =
      List.replicate a 32 ++ (pre ++ List.replicate z 48 ++ body) ++ List.replicate b 32 := by
  unfold field
  dsimp only
  generalize w - (pre.length + body.length) = n
  cases left
  · cases zero
    · exact ⟨n, 0, 0, by simp⟩
    · exact ⟨0, n, 0, by simp⟩
  · exact ⟨0, 0, n, by simp⟩

theorem withPrecision_shape {p : Option Nat} {z : Bool} {ds : JStr} (h : ¬ (z = true ∧ p = some 0)) :
    ∃ n, withPrecision p z ds = List.replicate n 48 ++ ds := by
  unfold withPrecision
  rw [if_neg h]
  exact ⟨_, rfl⟩

theorem digits_ends {b : Nat} {n : Nat} {ds : JStr} (hd : IsNumeral b ds) :
    (List.replicate n 48 ++ ds).head? ≠ some 32 ∧ (List.replicate n 48 ++ ds).getLast? ≠ some 32 ∧
    (List.replicate n 48 ++ ds) ≠ [] ∧ ∀ c ∈ List.replicate n 48 ++ ds, c ≠ 32 ∧ c ≠ 43 ∧ c ≠ 45 ∧ c ≠ 120 := by
  have all : ∀ c ∈ List.replicate n 48 ++ ds, c ≠ 32 ∧ c ≠ 43 ∧ c ≠ 45 ∧ c ≠ 120 := by
    intro c hc
    rcases List.mem_append.1 hc with hc | hc
    · have := (List.mem_replicate.1 hc).2
      omega
    · have := (hd.2 c hc).1
      omega
  refine ⟨?_, ?_, by simp [hd.1], all⟩
  · intro h; exact (all 32 (List.mem_of_mem_head? h)).1 rfl
  · intro h; exact (all 32 (List.mem_of_getLast? h)).1 rfl

theorem readSigned_field {fl : Flags} {neg left zero : Bool} {w : Nat} {n : Nat} {ds : JStr}
    (hd : IsNumeral 10 ds) :
    readSigned (field left zero w (signText fl neg) (List.replicate n 48 ++ ds)) =
      if neg then -(valueIn 10 ds : Int) else valueIn 10 ds := by
  obtain ⟨a, z, b, h⟩ := field_shape left zero w (signText fl neg) (List.replicate n 48 ++ ds)
  have hz : List.replicate z 48 ++ (List.replicate n 48 ++ ds) = List.replicate (z + n) 48 ++ ds := by
    rw [← List.append_assoc, List.replicate_append_replicate]
  rw [h, List.append_assoc (signText fl neg), hz]
  obtain ⟨e1, e2, e3, e4⟩ := digits_ends (n := z + n) hd
  have hv : valueIn 10 (List.replicate (z + n) 48 ++ ds) = valueIn 10 ds := by
    rw [valueIn_append, valueIn_replicate_zero]; simp
  generalize List.replicate (z + n) 48 ++ ds = t at *
  have signed : ∀ c : Nat, c ≠ 32 → trimSpaces (List.replicate a 32 ++ ([c] ++ t) ++ List.replicate b 32) = c :: t := by
    intro c hc
    rw [trimSpaces_pad]
    · rfl
    · simpa using hc
    · rw [List.getLast?_append_of_ne_nil _ e3]; exact e2
    · simp
  have plain : ∀ a, trimSpaces (List.replicate a 32 ++ t ++ List.replicate b 32) = t :=
    fun a => trimSpaces_pad e1 e2 e3
  have rd : ∀ s, trimSpaces s = t → readSigned s = valueIn 10 t := by
    intro s hs
    unfold readSigned
    rw [hs]
    cases t with
    | nil => rfl
    | cons c t =>
      have := e4 c (by simp)
      split
      · rename_i heq; cases heq; omega
      · rename_i heq; cases heq; omega
      · rfl
  unfold signText
  cases neg
  · simp only [Bool.false_eq_true, if_false]
    split_ifs
    · unfold readSigned; rw [signed 43 (by omega)]; simp [hv]
    · have : List.replicate a 32 ++ ([32] ++ t) ++ List.replicate b 32 =
          List.replicate (a + 1) 32 ++ t ++ List.replicate b 32 := by
        rw [List.replicate_succ']; simp
      rw [this, rd _ (plain _), hv]
    · rw [List.nil_append, rd _ (plain _), hv]
  · simp only [if_true]
    unfold readSigned; rw [signed 45 (by omega)]; simp [hv]

theorem readUnsigned_field {b : Nat} (left zero : Bool) (w : Nat) {pre : JStr}
    (hpre : pre = [] ∨ pre = js! "0x") (n : Nat) {ds : JStr} (hd : IsNumeral b ds) :
    readUnsigned b (field left zero w pre (List.replicate n 48 ++ ds)) = valueIn b ds := by
  obtain ⟨a, z, e, h⟩ := field_shape left zero w pre (List.replicate n 48 ++ ds)
  have hz : List.replicate z 48 ++ (List.replicate n 48 ++ ds) = List.replicate (z + n) 48 ++ ds := by
    rw [← List.append_assoc, List.replicate_append_replicate]
  rw [h, List.append_assoc pre, hz]
  obtain ⟨e1, e2, e3, e4⟩ := digits_ends (n := z + n) hd
  have hv : valueIn b (List.replicate (z + n) 48 ++ ds) = valueIn b ds := by
    rw [valueIn_append, valueIn_replicate_zero]; simp
  generalize List.replicate (z + n) 48 ++ ds = t at *
  rcases hpre with rfl | rfl
  · rw [List.nil_append]
    unfold readUnsigned
    rw [trimSpaces_pad e1 e2 e3]
    split
    · have := e4 120 (by simp)
      omega
    · exact hv
  · unfold readUnsigned
    rw [trimSpaces_pad]
    · exact hv
    · simp
    · rw [List.getLast?_append_of_ne_nil _ e3]; exact e2
    · simp

/-! ### `%u`, `%o`, `%x` -/

/-- The prefix handed to `formatUnsignedInteger`. -/
def Spec.UConv.pre : UConv → JStr
  | .u => [] | .o => js! "0" | .x => js! "0x"

/-- The text of the unsigned conversions. -/
def uText (c : UConv) (fl : Flags) (w : Nat) (p : Option Nat) (v : Nat) : JStr :=
  if v = 0 ∧ p = some 0 then List.replicate w 32
  else field fl.leftJustify false w []
    ((if v ≠ 0 ∧ fl.alternate = true then c.pre else []) ++
      (List.replicate ((match p with
        | some p => if fl.alternate ∧ c = .o then p - 1 else p
        | none => if fl.zeroPad ∧ ¬ fl.leftJustify then
            (if fl.alternate then w - c.pre.length else w) else 0) -
        (toRadix c.base v).length) 48 ++ toRadix c.base v))

theorem toRadix_length_pos (b n : Nat) : 1 ≤ (toRadix b n).length := by
  cases h : toRadix b n with
  | nil => exact absurd h (toRadix_ne_nil b n)
  | cons a t => simp

theorem unsigned_means {ctx : FormatContext} (hp : SeqFormatter.PrecOK ctx) (c : UConv) {sg : Int}
    {n : Nat} (hs : sg = 0 ↔ n = 0) {x : Res JStr} (hx : x = .ok (toRadix c.base n)) :
    ∃ r, SeqFormatter.formatUnsignedInteger ctx sg x c.pre = .ok r ∧ r.WF ∧
      r.text = uText c ctx.flags ctx.width.toNat (SeqFormatter.precOf ctx) n := by
  obtain ⟨r, h1, h2, h3⟩ := SeqFormatter.unsigned_ok ctx sg hx c.pre
  refine ⟨r, h1, h2, ?_⟩
  have e1 : UNSET = -1 := rfl
  have hz : ctx.precision = 0 ↔ SeqFormatter.precOf ctx = some 0 := by
    unfold SeqFormatter.precOf
    split_ifs with hu
    · simp; omega
    · rcases hp with hp | hp
      · exact absurd hp hu
      · simp; omega
  have hlen := toRadix_length_pos c.base n
  rw [h3]
  unfold uText
  simp only [hs, hz]
  by_cases h0 : n = 0 ∧ SeqFormatter.precOf ctx = some 0
  · simp only [if_pos h0]
    unfold field
    cases ctx.flags.leftJustify <;> simp
  · simp only [if_neg h0, ne_eq, hs]
    have harg : (SeqFormatter.uPrecision ctx c.pre).toNat - (toRadix c.base n).length =
        (match SeqFormatter.precOf ctx with
          | some p => if ctx.flags.alternate ∧ c = .o then p - 1 else p
          | none => if ctx.flags.zeroPad ∧ ¬ ctx.flags.leftJustify then
              (if ctx.flags.alternate then ctx.width.toNat - c.pre.length else ctx.width.toNat) else 0) -
          (toRadix c.base n).length := by
      have ho : ((js! "0" : JStr) == c.pre) = true ↔ c = .o := by cases c <;> decide
      unfold SeqFormatter.uPrecision SeqFormatter.precOf
      by_cases hset : ctx.precision = UNSET
      · have hps : ¬ ctx.isPrecisionSet = true := by rw [SeqFormatter.isPrecisionSet_iff]; simpa using hset
        rw [if_neg hps, if_pos hset]
        simp only [SeqFormatter.hasFlag_zero, SeqFormatter.hasFlag_left, SeqFormatter.hasFlag_alt]
        by_cases hzp : ctx.flags.zeroPad = true ∧ ¬ ctx.flags.leftJustify = true
        · rw [if_pos hzp]
          by_cases hws : ctx.width = UNSET
          · rw [if_neg (by simp [FormatContext.isWidthSet, hws])]
            have : ctx.width.toNat = 0 := by rw [hws]; rfl
            rw [this]
            split_ifs <;> simp <;> omega
          · have hws' : ctx.isWidthSet = true := (SeqFormatter.isWidthSet_iff ctx).2 hws
            rw [if_pos (by simp [hzp.1, hws', hzp.2])]
            split_ifs <;> omega
        · rw [if_neg hzp, if_neg]
          · simp; omega
          · intro hc
            simp only [Bool.and_eq_true, Bool.not_eq_true'] at hc
            exact hzp ⟨hc.1.1, by simp [hc.2]⟩
      · have hps : ctx.isPrecisionSet = true := by rw [SeqFormatter.isPrecisionSet_iff]; exact hset
        rw [if_pos hps, if_neg hset]
        simp only [SeqFormatter.hasFlag_alt, Bool.and_eq_true, ho]
        split_ifs <;> omega
    rw [harg]

theorem field_zero_fill (w : Nat) (pre ds : JStr) :
    field false false w [] (pre ++ (List.replicate (w - pre.length - ds.length) 48 ++ ds)) =
      field false true w pre ds := by
  unfold field
  simp only [Bool.false_eq_true, if_false, if_true, List.length_nil, List.length_append,
    List.length_replicate, List.append_nil]
  have h1 : w - (0 + (pre.length + (w - pre.length - ds.length + ds.length))) = 0 := by omega
  have h2 : w - pre.length - ds.length = w - (pre.length + ds.length) := by omega
  rw [h1, h2]
  simp

theorem field_zero_left (w : Nat) (z : Bool) (pre body : JStr) :
    field true z w pre body = field true false w pre body := rfl

/-- The text the C rules prescribe. -/
def cText (c : UConv) (fl : Flags) (w : Nat) (p : Option Nat) (v : Nat) : JStr :=
  field fl.leftJustify (fl.zeroPad && p.isNone) w
    (alternative c fl.alternate v (withPrecision p (v = 0) (toRadix c.base v))).1
    (alternative c fl.alternate v (withPrecision p (v = 0) (toRadix c.base v))).2

theorem UConv.base_bounds (c : UConv) : 2 ≤ c.base ∧ c.base ≤ 16 := by
  cases c <;> simp [UConv.base]

theorem CUnsigned_iff (c : UConv) (fl : Flags) (w : Nat) (p : Option Nat) (v : Nat) (out : JStr) :
    CUnsigned c fl w p v out ↔ out = cText c fl w p v := by
  obtain ⟨b2, b16⟩ := UConv.base_bounds c
  constructor
  · rintro ⟨ds, h1, h2⟩
    rw [h1.eq b2 b16] at h2
    exact h2
  · intro h
    exact ⟨_, shortest_toRadix b2 b16 _, h⟩

/-- Zero padding by precision equals zero padding by field. -/
theorem uText_fill {fl : Flags} {w : Nat} {pre ds : JStr} {n : Nat} (hl : 1 ≤ ds.length)
    (hn : n = if fl.zeroPad = true ∧ ¬ fl.leftJustify = true then w - pre.length else 0) :
    field fl.leftJustify false w [] (pre ++ (List.replicate (n - ds.length) 48 ++ ds)) =
      field fl.leftJustify fl.zeroPad w pre ds := by
  by_cases hz : fl.zeroPad = true ∧ ¬ fl.leftJustify = true
  · rw [if_pos hz] at hn
    subst hn
    have h2 : fl.leftJustify = false := by simpa using hz.2
    rw [hz.1, h2, field_zero_fill]
  · rw [if_neg hz] at hn
    subst hn
    have : 0 - ds.length = 0 := by omega
    rw [this, List.replicate_zero, List.nil_append, SeqFormatter.field_nil_append]
    cases hl : fl.leftJustify
    · have : fl.zeroPad = false := by
        by_contra hc; exact hz ⟨by simpa using hc, by simp [hl]⟩
      rw [this]
    · rfl

theorem withPrecision_nz {p : Option Nat} {ds : JStr} {z : Bool} (h : z = false) :
    withPrecision p z ds = List.replicate (p.getD 1 - ds.length) 48 ++ ds := by
  subst h
  unfold withPrecision
  rw [if_neg (by simp)]

theorem replicate_cons_comm (n : Nat) (s : JStr) :
    List.replicate n 48 ++ 48 :: s = 48 :: (List.replicate n 48 ++ s) := by
  induction n with
  | zero => rfl
  | succ n ih => simp [List.replicate_succ, ih]

theorem uText_nonzero (c : UConv) (fl : Flags) (w : Nat) (p : Option Nat) {v : Nat} (hv : v ≠ 0) :
    uText c fl w p v = cText c fl w p v := by
  have hL := toRadix_length_pos c.base v
  have hhead := toRadix_head_ne (UConv.base_bounds c).1 hv
  unfold uText cText
  rw [if_neg (by simp [hv]), withPrecision_nz (by simp [hv])]
  generalize toRadix c.base v = ds at *
  cases p with
  | none =>
    have h1 : (none : Option Nat).getD 1 - ds.length = 0 := by simp only [Option.getD_none]; omega
    rw [h1]
    simp only [List.replicate_zero, List.nil_append, Option.isNone_none, Bool.and_true]
    cases c with
    | u =>
      simp only [alternative]
      have : (if v ≠ 0 ∧ fl.alternate = true then UConv.pre .u else []) = ([] : JStr) := by
        split_ifs <;> rfl
      rw [this]
      refine uText_fill hL ?_
      simp [UConv.pre]
    | x =>
      simp only [alternative, hv, ne_eq, not_false_eq_true, and_true, true_and]
      refine uText_fill hL ?_
      cases fl.alternate <;> simp [UConv.pre]
    | o =>
      simp only [alternative, hhead, ne_eq, not_false_eq_true, and_true, hv, true_and]
      cases ha : fl.alternate
      · simp only [Bool.false_eq_true, if_false]
        exact uText_fill hL (by simp)
      · simp only [if_true, UConv.pre, List.length_singleton]
        have e : ([48] : JStr) ++ (List.replicate ((if fl.zeroPad = true ∧ ¬fl.leftJustify = true then w - 1 else 0) - ds.length) 48 ++ ds)
            = [] ++ (List.replicate ((if fl.zeroPad = true ∧ ¬fl.leftJustify = true then w - 0 else 0) - (48 :: ds).length) 48 ++ 48 :: ds) := by
          rw [replicate_cons_comm]
          simp only [List.singleton_append, List.nil_append, List.length_cons]
          congr 3
          split_ifs <;> omega
        rw [e]
        exact uText_fill (by simp) (by simp)
  | some p =>
    simp only [Option.getD_some, Option.isNone_some, Bool.and_false]
    cases c with
    | u =>
      simp only [alternative]
      have : (if v ≠ 0 ∧ fl.alternate = true then UConv.pre .u else []) = ([] : JStr) := by
        split_ifs <;> rfl
      rw [this]
      simp
    | x =>
      simp only [alternative, hv, ne_eq, not_false_eq_true, and_true, true_and]
      rw [SeqFormatter.field_nil_append]
      simp [UConv.pre]
    | o =>
      simp only [alternative, hv, ne_eq, not_false_eq_true, and_true, true_and]
      cases ha : fl.alternate
      · simp
      · simp only [if_true, true_and, UConv.pre]
        by_cases hp : p ≤ ds.length
        · have h1 : p - 1 - ds.length = 0 := by omega
          have h2 : p - ds.length = 0 := by omega
          rw [h1, h2]
          simp [hhead]
        · have h2 : p - ds.length = (p - 1 - ds.length) + 1 := by omega
          rw [h2, List.replicate_succ]
          simp

/-- When C and the library disagree on zero. -/
def zeroDeviation (c : UConv) (fl : Flags) (w : Nat) (p : Option Nat) : Prop :=
  fl.alternate = true ∧ ((c = .o ∧ (p = some 0 ∨ ∃ n, p = some n ∧ 2 ≤ n)) ∨
    (c ≠ .u ∧ p = none ∧ fl.zeroPad = true ∧ fl.leftJustify = false ∧ 2 ≤ w))

theorem field_length (left zero : Bool) (w : Nat) (pre body : JStr) :
    (field left zero w pre body).length = max w (pre.length + body.length) := by
  unfold field
  cases left <;> cases zero <;> simp <;> omega

/-- The number of zeros in a field that holds nothing but zeros and padding spaces. -/
theorem field_count (left : Bool) (w n : Nat) :
    (field left false w [] (List.replicate n 48)).count 48 = n := by
  unfold field
  cases left <;> simp [List.count_replicate]

theorem field_zero_count (w n : Nat) :
    (field false true w [] (List.replicate n 48)).count 48 = max w n := by
  unfold field
  simp
  omega

theorem uText_zero (c : UConv) (fl : Flags) (w : Nat) (p : Option Nat) :
    uText c fl w p 0 = cText c fl w p 0 ↔ ¬ zeroDeviation c fl w p := by
  have hz : ∀ b, toRadix b 0 = List.replicate 1 48 := fun b => rfl
  have rep : ∀ n, List.replicate n (48 : Nat) ++ List.replicate 1 48 = List.replicate (n + 1) 48 :=
    fun n => List.replicate_append_replicate
  -- both sides are fields of zeros; compare the numbers of zeros
  have lib : ∀ (p : Option Nat), p ≠ some 0 → ∃ n, uText c fl w p 0 =
      field fl.leftJustify false w [] (List.replicate n 48) ∧
      n = max 1 (match p with
        | some p => if fl.alternate ∧ c = .o then p - 1 else p
        | none => if fl.zeroPad ∧ ¬ fl.leftJustify then
            (if fl.alternate then w - c.pre.length else w) else 0) := by
    intro p hp
    refine ⟨_, ?_, rfl⟩
    unfold uText
    rw [if_neg (by simp [hp]), hz, rep]
    simp only [ne_eq, not_true_eq_false, false_and, if_false, List.nil_append, List.length_replicate]
    congr 2
    omega
  cases p with
  | none =>
    obtain ⟨n, h1, h2⟩ := lib none (by simp)
    have hc : cText c fl w none 0 = field fl.leftJustify fl.zeroPad w [] (List.replicate 1 48) := by
      unfold cText
      have : withPrecision none (decide ((0 : Nat) = 0)) (toRadix c.base 0) = List.replicate 1 48 := by
        simp [withPrecision, hz]
      rw [this]
      simp only [Option.isNone_none, Bool.and_true]
      cases c <;> simp [alternative]
    rw [h1, hc]
    dsimp only at h2
    by_cases hzp : fl.zeroPad = true ∧ fl.leftJustify = false
    · obtain ⟨z1, z2⟩ := hzp
      rw [z1, z2] at h2 ⊢
      simp only [Bool.false_eq_true, not_false_eq_true, and_self, if_true] at h2
      constructor
      · intro h
        have := congrArg (List.count 48) h
        rw [field_count, field_zero_count] at this
        rintro ⟨ha, hd⟩
        rw [ha] at h2
        simp only [if_true] at h2
        rcases hd with ⟨_, hd⟩ | ⟨hu, _, _, _, hw⟩
        · rcases hd with hd | ⟨n, hd, _⟩ <;> cases hd
        · cases c with
          | u => exact hu rfl
          | o => simp [UConv.pre] at h2; omega
          | x => simp [UConv.pre] at h2; omega
      · intro h
        have hn : n = max 1 w := by
          rw [h2]
          cases ha : fl.alternate
          · simp
          · simp only [if_true]
            by_cases hw : 2 ≤ w
            · cases c with
              | u => simp [UConv.pre]
              | o => exact absurd ⟨ha, .inr ⟨by simp, rfl, z1, z2, hw⟩⟩ h
              | x => exact absurd ⟨ha, .inr ⟨by simp, rfl, z1, z2, hw⟩⟩ h
            · omega
        rw [hn]
        unfold field
        simp only [Bool.false_eq_true, if_false, if_true, List.length_nil, List.length_replicate,
          List.append_nil, List.nil_append, Nat.zero_add]
        rw [rep]
        have h1 : w - max 1 w = 0 := by omega
        rw [h1, List.replicate_zero, List.nil_append]
        congr 1; omega
    · have hn : n = 1 := by
        rw [h2, if_neg (by simpa using hzp)]; rfl
      constructor
      · rintro _ ⟨ha, hd⟩
        rcases hd with ⟨_, hd⟩ | ⟨_, _, d1, d2, _⟩
        · rcases hd with hd | ⟨n, hd, _⟩ <;> cases hd
        · exact hzp ⟨d1, d2⟩
      · intro _
        rw [hn]
        cases hl : fl.leftJustify
        · have : fl.zeroPad = false := by
            by_contra hc; exact hzp ⟨by simpa using hc, hl⟩
          rw [this]
        · rfl
  | some p =>
    by_cases hp0 : p = 0
    · subst hp0
      have hu : uText c fl w (some 0) 0 = List.replicate w 32 := by simp [uText]
      have hw : withPrecision (some 0) (decide ((0 : Nat) = 0)) (toRadix c.base 0) = [] := by
        simp [withPrecision]
      have blank : ∀ l, field l false w [] [] = List.replicate w 32 := by
        intro l; cases l <;> simp [field]
      rw [hu]
      unfold cText
      rw [hw]
      simp only [Option.isNone_some, Bool.and_false]
      cases c with
      | u => simp [alternative, blank, zeroDeviation]
      | x => simp [alternative, blank, zeroDeviation]
      | o =>
        cases ha : fl.alternate
        · simp [alternative, blank, zeroDeviation, ha]
        · simp only [alternative, List.head?_nil, true_and, ne_eq, reduceCtorEq, not_false_eq_true,
            if_true, zeroDeviation, ha, true_or, not_true_eq_false, iff_false]
          intro h
          have := congrArg (List.count 48) h
          have e : field fl.leftJustify false w [] ([48] : JStr) =
            field fl.leftJustify false w [] (List.replicate 1 48) := rfl
          rw [e, field_count] at this
          simp [List.count_replicate] at this
    · obtain ⟨n, h1, h2⟩ := lib (some p) (by simpa using hp0)
      have hc : cText c fl w (some p) 0 = field fl.leftJustify false w [] (List.replicate p 48) := by
        unfold cText
        have : withPrecision (some p) (decide ((0 : Nat) = 0)) (toRadix c.base 0) =
            List.replicate p 48 := by
          unfold withPrecision
          rw [if_neg (by simp [hp0]), hz, rep, List.length_replicate, Option.getD_some]
          congr 1; omega
        rw [this]
        simp only [Option.isNone_some, Bool.and_false]
        have hh : (List.replicate p (48 : Nat)).head? = some 48 := by
          cases p with
          | zero => exact absurd rfl hp0
          | succ p => rfl
        cases c <;> simp [alternative, hh]
      rw [h1, hc]
      dsimp only at h2
      have hiff : field fl.leftJustify false w [] (List.replicate n 48) =
          field fl.leftJustify false w [] (List.replicate p 48) ↔ n = p := by
        constructor
        · intro h
          have := congrArg (List.count 48) h
          rwa [field_count, field_count] at this
        · intro h; rw [h]
      rw [hiff]
      constructor
      · rintro hnp ⟨ha, hd⟩
        rcases hd with ⟨hc', hd⟩ | ⟨_, hd, _⟩
        · rw [if_pos ⟨ha, hc'⟩] at h2
          rcases hd with hd | ⟨m, hd, hm⟩
          · cases hd; omega
          · cases hd; omega
        · cases hd
      · intro h
        by_cases hao : fl.alternate = true ∧ c = .o
        · rw [if_pos hao] at h2
          have : ¬ 2 ≤ p := fun hp2 => h ⟨hao.1, .inl ⟨hao.2, .inr ⟨p, rfl, hp2⟩⟩⟩
          omega
        · rw [if_neg hao] at h2
          omega

theorem uText_C (c : UConv) (fl : Flags) (w : Nat) (p : Option Nat) (v : Nat) :
    CUnsigned c fl w p v (uText c fl w p v) ↔ ¬ (v = 0 ∧ zeroDeviation c fl w p) := by
  rw [CUnsigned_iff]
  by_cases hv : v = 0
  · subst hv
    rw [uText_zero]; simp
  · simp [uText_nonzero c fl w p hv, hv]

theorem readUnsigned_uText (c : UConv) (fl : Flags) (w : Nat) (p : Option Nat) (v : Nat)
    (h : ¬ (v = 0 ∧ p = some 0)) : readUnsigned c.base (uText c fl w p v) = v := by
  obtain ⟨b2, b16⟩ := UConv.base_bounds c
  obtain ⟨N, hN⟩ : ∃ N, uText c fl w p v = field fl.leftJustify false w []
      ((if v ≠ 0 ∧ fl.alternate = true then c.pre else []) ++
        (List.replicate N 48 ++ toRadix c.base v)) := ⟨_, by unfold uText; rw [if_neg h]⟩
  rw [hN]
  have hd := toRadix_isNumeral b2 b16 v
  have hv := valueIn_toRadix b2 b16 v
  rw [SeqFormatter.field_nil_append]
  split_ifs
  · cases c with
    | u => rw [readUnsigned_field _ _ _ (pre := UConv.pre .u) (.inl rfl) _ hd, hv]
    | x => rw [readUnsigned_field _ _ _ (pre := UConv.pre .x) (.inr rfl) _ hd, hv]
    | o =>
      rw [← SeqFormatter.field_nil_append]
      have : UConv.pre .o ++ (List.replicate N 48 ++ toRadix (UConv.base .o) v) =
          List.replicate (N + 1) 48 ++ toRadix (UConv.base .o) v := by
        simp [UConv.pre, List.replicate_succ]
      rw [this, readUnsigned_field _ _ _ (.inl rfl) _ hd, hv]
  · rw [readUnsigned_field _ _ _ (.inl rfl) _ hd, hv]

theorem readSigned_dText (fl : Flags) (w : Nat) (p : Option Nat) (v : Int)
    (h : ¬ (v = 0 ∧ p = some 0)) : readSigned (dText fl w p v) = v := by
  unfold dText
  rw [if_neg h]
  obtain ⟨n, hn⟩ := withPrecision_shape (p := p) (z := decide (v = 0)) (ds := toRadix 10 v.natAbs)
    (by simpa using h)
  rw [hn, readSigned_field (toRadix_isNumeral (by omega) (by omega) _),
    valueIn_toRadix (by omega) (by omega)]
  simp only [decide_eq_true_eq]
  split_ifs <;> omega

end FastPrintf
