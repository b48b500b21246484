/-
Objects of a subclass of `BigDecimal`: those that answer as a `BigDecimal` does.
-/
import Verif.Spec.OwnDec
import Verif.Props.OwnBig
import Verif.Proofs.BigLimits
import Verif.Proofs.DecimalFormat
import Verif.Proofs.Determined
import Verif.Proofs.Readings

namespace FastPrintf
open Spec

variable {σ : Type}

namespace OwnDec
open OwnForms BigDec

theorem gives_of {α : Type} (r : Res α) : AlwaysGives (.of r : Effect σ α) r := fun _ => rfl

theorem gives_then {α β : Type} {x : Effect σ α} {a : α} {f : α → Effect σ β} {r : Res β} (hx : AlwaysGives x (.ok a))
    (hf : AlwaysGives (f a) r) : AlwaysGives (x >>= f) r := by
  intro s
  have h := hx s
  rw [bind_at]
  generalize x s = q at h ⊢
  obtain ⟨q, s'⟩ := q
  dsimp only at h
  subst h
  exact hf s'

/-- A program, and then only computation. -/
theorem gives_map {α β : Type} {x : Effect σ α} {r : Res α} {f : α → Effect σ β} {k : α → Res β} (hx : AlwaysGives x r)
    (hf : ∀ a, f a = .of (k a)) : AlwaysGives (x >>= f) (r >>= k) := by
  cases r with
  | error e =>
    intro s
    have h := hx s
    rw [bind_at]
    generalize x s = q at h ⊢
    obtain ⟨q, s'⟩ := q
    dsimp only at h
    subst h
    rfl
  | ok a => exact gives_then hx (by rw [hf]; exact gives_of _)

theorem of_bind {α β : Type} (r : Res α) (f : α → Effect σ β) {k : α → Res β} (h : ∀ a, f a = .of (k a)) :
    (.of r >>= f : Effect σ β) = .of (r >>= k) := by
  cases r with
  | error e => rfl
  | ok a => show f a = .of (k a); exact h a

theorem text_nat (m : Nat) : intToString (m : Int) = toRadix 10 m := by
  unfold intToString
  rw [if_neg (by omega)]
  rfl

theorem scaled_eq {u : Nat} {sc p : Int} (h : p < sc) :
    halfUp (bigValue u sc) p = divHalfUp u (sc - p).toNat := by
  unfold bigValue
  rw [FormattedFPDecimal.halfUp_eq, BigDecimalWrapper.divHalfUp_eq _ (by omega)]
  congr 1
  omega

theorem gives_decimal0 {w : Scaled σ} {m : Nat} {n : Int} (h1 : AlwaysGives w.unscaledValue (.ok (some m)))
    (h2 : AlwaysGives w.scale (.ok n)) : AlwaysGives (decimalLayout0 w) (BigDecimalWrapper.decimalLayout0 ⟨m, n⟩) := by
  refine gives_then h1 (gives_then h2 (gives_then (gives_of (.ok (m : Int))) ?_))
  rw [text_nat]
  exact gives_of _

theorem rounded_nat (p : Int) (u : Nat) (sc : Int) :
    (rounded p u sc >>= fun q => decimalText q.1 q.2) =
      (withMathContext p ⟨u, sc⟩ >>= BigDecimalWrapper.decimalLayout0) ∧
    (rounded p u sc >>= fun q => scientificText q.1 q.2) =
      (withMathContext p ⟨u, sc⟩ >>= BigDecimalWrapper.scientificLayout0) := by
  unfold rounded
  rw [Int.natAbs_natCast]
  rcases withMathContext p ⟨u, sc⟩ with e | r
  · exact ⟨rfl, rfl⟩
  · constructor <;>
    · simp only [bind_ok]
      rw [if_neg (by omega)]
      rfl

theorem gives_decimal {v : Kept σ} {u : Nat} {sc : Int} (h : KeptLike v u sc) {n : Nat} (hn : DigitCount u n)
    (hn' : (n : Int) ≤ 2147483647) {p : Int}
    (hp : -2147483648 ≤ p) :
    AlwaysGives (decimalLayout v p) (BigDecimalWrapper.decimalLayout ⟨u, sc⟩ p) := by
  have hl : (BigDec.mk u sc).precision = n := hn.digits.length
  refine gives_then h.scale ?_
  unfold BigDecimalWrapper.decimalLayout
  dsimp only
  by_cases c : sc > p
  · rw [if_pos c, if_pos c, hl]
    obtain ⟨n', hd, h2⟩ := h.precision
    obtain rfl := hd.unique hn
    refine gives_then h2 ?_
    by_cases c2 : (n' : Int) ≤ sc
    · rw [if_pos c2, if_pos c2]
      obtain ⟨w, w1, w2, w3⟩ := h.setScale p c
      refine gives_then w1 (gives_then (gives_of (.ok w)) ?_)
      rw [scaled_eq c] at w2
      exact gives_decimal0 w2 w3
    · rw [if_neg c2, if_neg c2]
      have e : wrap32 (n' - wrap32 (sc - p)) = n' - (sc - p) := by
        have e1 : wrap32 (n' - wrap32 (sc - p)) = wrap32 (n' - (sc - p)) := by
          unfold wrap32
          rw [Int.sub_bmod_bmod]
        rw [e1, wrap32_eq (by omega)]
      rw [e]
      have r1 := (rounded_nat (n' - (sc - p)) u sc).1
      by_cases c3 : (n' : Int) - (sc - p) < 0
      · have e2 : withMathContext (n' - (sc - p)) ⟨u, sc⟩ = .error .illegalArgument := if_pos c3
        rw [e2]
        refine gives_then h.unscaled ?_
        unfold mathContext
        rw [if_pos c3]
        exact gives_of _
      · refine gives_then h.unscaled (gives_then (a := (n' : Int) - (sc - p)) ?_ (gives_then (gives_of (.ok (u : Int))) ?_))
        · unfold mathContext
          rw [if_neg c3]
          exact gives_of _
        · rw [← r1]
          exact gives_of _
  · rw [if_neg c, if_neg c]
    exact gives_decimal0 h.unscaled h.scale

theorem gives_scientific {v : Kept σ} {u : Nat} {sc : Int} (h : KeptLike v u sc) {n : Nat} (hn : DigitCount u n)
    (hn' : (n : Int) ≤ 2147483647) {p : Int} (hp : -1 ≤ p) :
    AlwaysGives (scientificLayout v p) (BigDecimalWrapper.scientificLayout ⟨u, sc⟩ p) := by
  have hl : (BigDec.mk u sc).precision = n := hn.digits.length
  obtain ⟨n', hd, h2⟩ := h.precision
  obtain rfl := hd.unique hn
  have hpos := hn.digits.pos
  refine gives_then h.scale (gives_then h2 ?_)
  have e1 : wrap32 ((n' : Int) - 1) = n' - 1 := wrap32_eq (by omega)
  have e2 : (if p > wrap32 ((n' : Int) - 1) then (n' : Int) else wrap32 (p + 1)) =
      if p > (n' : Int) - 1 then (n' : Int) else p + 1 := by
    rw [e1]
    by_cases c : p > (n' : Int) - 1
    · rw [if_pos c, if_pos c]
    · rw [if_neg c, if_neg c, wrap32_eq (by omega)]
  unfold BigDecimalWrapper.scientificLayout
  rw [e2, hl]
  have c0 : ¬ (if p > (n' : Int) - 1 then (n' : Int) else p + 1) < 0 := by split_ifs <;> omega
  refine gives_then (a := if p > (n' : Int) - 1 then (n' : Int) else p + 1) ?_
    (gives_then h.unscaled (gives_then (gives_of (.ok (u : Int))) ?_))
  · unfold mathContext
    rw [if_neg c0]
    exact gives_of _
  · rw [show (withMathContext _ _ >>= fun x => BigDecimalWrapper.scientificLayout0 x) = _ from
      (rounded_nat (if p > (n' : Int) - 1 then (n' : Int) else p + 1) u sc).2.symm]
    exact gives_of _

theorem ge_eq (u : Nat) (sc k : Int) :
    BigDec.geTenPow ⟨u, sc⟩ k = true ↔ (10 : ℚ) ^ k ≤ bigValue u sc := by
  have e : (10 : ℚ) ^ k ≤ bigValue u sc ↔ (10 : ℚ) ^ (k + sc) ≤ u := by
    unfold bigValue
    rw [zpow_add₀ (by norm_num), zpow_neg]
    have hp : (0 : ℚ) < 10 ^ sc := by positivity
    rw [← div_eq_mul_inv, le_div_iff₀ hp]
  rw [e]
  unfold BigDec.geTenPow
  dsimp only
  by_cases h : k + sc ≥ 0
  · rw [if_pos h, decide_eq_true_eq]
    obtain ⟨m, hm⟩ := Int.eq_ofNat_of_zero_le h
    rw [hm, Int.toNat_natCast, zpow_natCast]
    constructor
    · intro hh
      exact_mod_cast hh
    · intro hh
      exact_mod_cast hh
  · rw [if_neg h, decide_eq_true_eq]
    have h1 : (10 : ℚ) ^ (k + sc) ≤ 1 := zpow_le_one_of_nonpos₀ (by norm_num) (by omega)
    have h0 : (0 : ℚ) < 10 ^ (k + sc) := by positivity
    constructor
    · intro hh
      exact le_trans h1 (by exact_mod_cast hh)
    · intro hh
      have : (0 : ℚ) < u := lt_of_lt_of_le h0 hh
      exact_mod_cast this

theorem gives_general {v : Kept σ} {u : Nat} {sc : Int} (h : KeptLike v u sc) {n : Nat} (hn : DigitCount u n)
    (hn' : (n : Int) ≤ 2147483647) {p : Int}
    (hp : 0 ≤ p) (hp' : p ≤ 2147483647) :
    AlwaysGives (generalLayout v p) (BigDecimalWrapper.generalLayout ⟨u, sc⟩ p) := by
  have hr : AlwaysGives (inPlainRange v p) (.ok (decide ((u = 0 ∧ sc = 0) ∨
      (BigDec.geTenPow ⟨u, sc⟩ (-4) = true ∧ ¬ BigDec.geTenPow ⟨u, sc⟩ p = true)))) := by
    refine gives_then h.zero ?_
    by_cases c : u = 0 ∧ sc = 0
    · rw [decide_eq_true c, if_pos rfl, decide_eq_true (.inl c)]
      exact gives_of _
    · rw [decide_eq_false c, if_neg (by decide)]
      obtain ⟨x, x1, x2⟩ := h.compare 4
      rw [← ge_eq] at x2
      refine gives_then x1 ?_
      by_cases c2 : x ≥ 0
      · rw [if_pos c2, wrap32_eq (by omega)]
        obtain ⟨y, y1, y2⟩ := h.compare (-p)
        rw [neg_neg, ← ge_eq] at y2
        refine gives_then y1 ?_
        have e : decide (y < 0) = decide ((u = 0 ∧ sc = 0) ∨
            (BigDec.geTenPow ⟨u, sc⟩ (-4) = true ∧ ¬ BigDec.geTenPow ⟨u, sc⟩ p = true)) := by
          have := x2.1 c2
          rw [decide_eq_decide, ← y2]
          constructor
          · intro h; exact .inr ⟨this, by omega⟩
          · rintro (h | h)
            · exact absurd h c
            · omega
        rw [e]
        exact gives_of _
      · rw [if_neg c2, decide_eq_false]
        · exact gives_of _
        · rintro (h | h)
          · exact c h
          · exact c2 (x2.2 h.1)
  refine gives_then hr ?_
  unfold BigDecimalWrapper.generalLayout
  dsimp only
  by_cases c : (u = 0 ∧ sc = 0) ∨ (BigDec.geTenPow ⟨u, sc⟩ (-4) = true ∧ ¬ BigDec.geTenPow ⟨u, sc⟩ p = true)
  · rw [decide_eq_true c, if_pos rfl, if_pos c]
    refine gives_then h.scale (gives_then h.unscaled (gives_then (gives_of (.ok (u : Int))) ?_))
    rw [text_nat]
    refine gives_decimal h hn hn' ?_
    unfold wrap32
    rw [Int.bmod_def]
    norm_num
    split_ifs <;> omega
  · rw [decide_eq_false c, if_neg (by decide), if_neg c, wrap32_eq (by omega)]
    exact gives_scientific h hn hn' (by omega)

/-! ### The conversions -/

open SeqFormatter in
theorem gives_f {value : Option (Kept σ)} {k : Int} {x : FloatForm} (hn : x.isNaN = false) (hi : x.isInfinite = false)
    (hk : x.signum = k) {ctx : FormatContext}
    (hL : AlwaysGives ((form value k).decimalLayout (precision6 ctx)) ((x.decimalLayout (precision6 ctx)).map some)) :
    AlwaysGives (OwnForms.f ctx (form value k)) (SeqFormatter.f ctx x) := by
  intro s
  unfold SeqFormatter.f
  rw [hn, hi]
  show (((form value k).decimalLayout (precision6 ctx) >>= _ : Effect σ Seq) s).1 =
    (x.decimalLayout (precision6 ctx) >>= _ : Res Seq)
  have h := hL s
  rw [bind_at]
  generalize (form value k).decimalLayout (precision6 ctx) s = q at h ⊢
  obtain ⟨q, s'⟩ := q
  dsimp only at h
  subst h
  rcases x.decimalLayout (precision6 ctx) with e | l
  · rfl
  · show (((.of (formatFractionalPart _ _ _) : Effect σ _) >>= _) s').1 = (formatFractionalPart _ _ _ >>= _ : Res Seq)
    rcases formatFractionalPart l.mantissa (precision6 ctx) (ctx.hasFlag .alternate) with e | m
    · rfl
    · subst hk; rfl

open SeqFormatter in
theorem gives_e {value : Option (Kept σ)} {k : Int} {x : FloatForm} (hn : x.isNaN = false) (hi : x.isInfinite = false)
    (hk : x.signum = k) {ctx : FormatContext}
    (hL : AlwaysGives ((form value k).scientificLayout (precision6 ctx)) ((x.scientificLayout (precision6 ctx)).map some)) :
    AlwaysGives (OwnForms.e ctx (form value k)) (SeqFormatter.e ctx x) := by
  intro s
  unfold SeqFormatter.e
  rw [hn, hi]
  show (((form value k).scientificLayout (precision6 ctx) >>= _ : Effect σ Seq) s).1 =
    (x.scientificLayout (precision6 ctx) >>= _ : Res Seq)
  have h := hL s
  rw [bind_at]
  generalize (form value k).scientificLayout (precision6 ctx) s = q at h ⊢
  obtain ⟨q, s'⟩ := q
  dsimp only at h
  subst h
  rcases x.scientificLayout (precision6 ctx) with e | l
  · rfl
  · show (((.of (formatFractionalPart _ _ _ >>= _) : Effect σ _) >>= _) s').1 =
      (formatFractionalPart _ _ _ >>= _ : Res Seq)
    rcases formatFractionalPart l.mantissa (precision6 ctx) (ctx.hasFlag .alternate) with e | m
    · rfl
    · subst hk
      rcases l with ⟨m, _ | ex⟩ <;> rfl

open SeqFormatter in
theorem gives_g {value : Option (Kept σ)} {k : Int} {x : FloatForm} (hn : x.isNaN = false) (hi : x.isInfinite = false)
    (hk : x.signum = k) {ctx : FormatContext}
    (hL : AlwaysGives ((form value k).generalLayout (gPrecision ctx)) ((x.generalLayout (gPrecision ctx)).map some)) :
    AlwaysGives (OwnForms.g ctx (form value k)) (SeqFormatter.g ctx x) := by
  intro s
  unfold SeqFormatter.g
  rw [hn, hi]
  show (((form value k).generalLayout (gPrecision ctx) >>= _ : Effect σ Seq) s).1 =
    (x.generalLayout (gPrecision ctx) >>= _ : Res Seq)
  have h := hL s
  rw [bind_at]
  generalize (form value k).generalLayout (gPrecision ctx) s = q at h ⊢
  obtain ⟨q, s'⟩ := q
  dsimp only at h
  subst h
  rcases x.generalLayout (gPrecision ctx) with e | l
  · rfl
  · subst hk
    rcases l with ⟨m, _ | ex⟩
    · show (((.of (formatGDecimal _ _ _) : Effect σ _) >>= _) s').1 = (formatGDecimal _ _ _ >>= _ : Res Seq)
      rcases formatGDecimal ctx ⟨m, none⟩ (gPrecision ctx) with e | q <;> rfl
    · show (((.of (formatGScientific _ _ _) : Effect σ _) >>= _) s').1 = (formatGScientific _ _ _ >>= _ : Res Seq)
      rcases formatGScientific ctx m ex with e | q <;> rfl

theorem gives_a {value : Option (Kept σ)} {k : Int} {ctx : FormatContext} :
    AlwaysGives (OwnForms.a ctx (form value k)) (.error (.printf (.wrongType .bigDecimalHex))) := by
  intro s
  cases value <;> rfl

/-- The number that is printed by the floating-point conversions. -/
def signedForm (u sc k : Int) : FloatForm := { FloatForm.ofBigDecimal u sc with signum := k }

theorem gives_kept {k : Kept σ} {layout : Kept σ → Effect σ FloatLayout} {r : Res FloatLayout}
    (h : AlwaysGives (layout k) r) : AlwaysGives (onKept (some k) layout) (r.map some) := by
  have := gives_map h (f := fun l => .of (.ok (some l))) (k := fun l => .ok (some l)) (fun _ => rfl)
  cases r <;> exact this

theorem gives_wrapper {v : Dec σ} {u sc k : Int} {str : JStr} (h : DecLike v u sc k str) {ref : RefSlot}
    {f : FloatProg σ → Effect σ Seq} {r : Res Seq}
    (hf : ∀ kept, KeptLike kept u.natAbs sc → AlwaysGives (f (form (some kept) k)) r) :
    AlwaysGives (onFloat (traits v ref) f) r := by
  obtain ⟨kept, h1, h2⟩ := h.abs
  have hw : AlwaysGives (wrapper v >>= fun n => nonNull n >>= f) r := by
    intro s
    have e : (wrapper v >>= fun n => nonNull n >>= f) s =
        (v.abs >>= fun value => v.signum >>= fun k => f (form value k)) s := by
      unfold wrapper
      simp only [bind_at]
      rcases v.abs s with ⟨_ | _, s'⟩
      · rfl
      · dsimp only
        rcases v.signum s' with ⟨_ | _, s''⟩ <;> rfl
    rw [e]
    exact gives_then h1 (gives_then h.signum (hf kept h2)) s
  exact hw

theorem jdk_form (n : Int) : (OwnBig.form (some (jdkKept n)) (signumOf n) : IntProg σ) = ownInt (IntForm.ofBigInteger n) := by
  unfold OwnBig.form ownInt OwnBig.nonNegative IntForm.ofBigInteger nonNegativeOnly
  have e : signumOf n < 0 ↔ n < 0 := by
    unfold signumOf
    split_ifs <;> omega
  by_cases h : n < 0
  · simp only [e, if_pos h]
    rfl
  · simp only [e, if_neg h]
    rfl

theorem gives_integer {v : Dec σ} {n : Int} (h : AlwaysGives v.toBigInteger (.ok (some n))) {ref : RefSlot}
    {k : IntProg σ → Effect σ Seq} {r : Res Seq} (hk : k (ownInt (IntForm.ofBigInteger n)) = .of r) :
    AlwaysGives (onInt (traits v ref) k) r := by
  intro s
  have e : onInt (traits v ref) k s = (v.toBigInteger >>= fun n => nonNull n >>= fun n =>
      k (OwnBig.form (some (jdkKept n)) (signumOf n))) s := by
    unfold onInt traits minimal
    simp only [bind_at]
    rcases v.toBigInteger s with ⟨_ | _ | _, s'⟩ <;> rfl
  rw [e]
  refine gives_then h (gives_then (gives_of (.ok n)) ?_) s
  rw [jdk_form, hk]
  exact gives_of _

theorem gives_upper {x : Effect σ Seq} {r : Res Seq} (h : AlwaysGives x r) :
    AlwaysGives (upper x) (r >>= Seq.upperCase) := gives_map h fun _ => rfl

end OwnDec
end FastPrintf
