/-
C98, `%a`: the library writes the sign of every exponent, Java only that of a negative one.
-/
import Verif.Spec.JavaHex
import Verif.Props.Hex
import Verif.Props.JavaFormatter

namespace FastPrintf
open Spec

namespace JavaFormatter

/-- The value and the absence of superfluous zeros determine the digits. -/
theorem hex_digits_unique {lead : Nat} {fp fp' : JStr} {x : Int} (hd : ∀ c ∈ fp, IsDigitIn 16 c)
    (hd' : ∀ c ∈ fp', IsDigitIn 16 c) (hn : fp ≠ []) (hn' : fp' ≠ [])
    (ht : fp = js! "0" ∨ fp.getLast? ≠ some 48) (ht' : fp' = js! "0" ∨ fp'.getLast? ≠ some 48)
    (hv : hexValue lead fp x = hexValue lead fp' x) : fp = fp' := by
  have lift : ∀ {g g' : JStr}, hexValue lead g x = hexValue lead g' x → hexValue 1 g x = hexValue 1 g' x := by
    intro g g' h
    have e : ∀ {k : JStr}, hexValue 1 k x = hexValue lead k x + (1 - lead) * 2 ^ x := by
      intro k; unfold hexValue; push_cast; ring
    rw [e, e, h]
  have zeros : ∀ {g : JStr} (k : Nat), (∀ c ∈ g, IsDigitIn 16 c) → ∀ c ∈ g ++ List.replicate k 48, IsDigitIn 16 c := by
    intro g k h c hc
    rcases List.mem_append.1 hc with hc | hc
    · exact h c hc
    · rw [(List.mem_replicate.1 hc).2]; unfold IsDigitIn; decide
  have key : ∀ {g g' : JStr}, (∀ c ∈ g, IsDigitIn 16 c) → (∀ c ∈ g', IsDigitIn 16 c) → g ≠ [] →
      (g' = js! "0" ∨ g'.getLast? ≠ some 48) → hexValue lead g x = hexValue lead g' x → ¬ g.length < g'.length := by
    intro g g' h1 h2 h3 h4 h5 hl
    have hl' : (g ++ List.replicate (g'.length - g.length) 48).length = g'.length := by
      rw [List.length_append, List.length_replicate]; omega
    have he := (hexValue_inj (x := x) (x' := x) (zeros _ h1) h2 hl' (lift (by rw [hexValue_zeros, h5]))).1
    have hpos : 1 ≤ g.length := List.length_pos_iff.2 h3
    rcases h4 with h4 | h4
    · rw [h4] at hl
      have : (js! "0" : JStr).length = 1 := rfl
      omega
    · apply h4
      rw [← he, show g'.length - g.length = (g'.length - g.length - 1) + 1 by omega, List.replicate_succ',
        ← List.append_assoc, List.getLast?_concat]
  have h1 := key hd hd' hn ht' hv
  have h2 := key hd' hd hn' ht hv.symm
  exact (hexValue_inj (x := x) (x' := x) hd hd' (by omega) (lift hv)).1

theorem count_plus_field (left zero : Bool) (w : Nat) (pre body : JStr) :
    (Spec.field left zero w pre body).count 43 = pre.count 43 + body.count 43 := by
  unfold Spec.field
  cases left <;> cases zero <;> simp [List.count_replicate]

theorem no_plus_digits {b : Nat} {s : JStr} (h : ∀ c ∈ s, IsDigitIn b c) : s.count 43 = 0 := by
  rw [List.count_eq_zero]
  intro hc
  have := (h 43 hc).1
  omega

/-- The exponent is negative exactly for the numbers between zero and one. -/
theorem hex_exponent_neg {bits : BitVec 64} {fp : JStr} {x : Int} (hd : ∀ c ∈ fp, IsDigitIn 16 c)
    (hx : x = (if magnitude bits = 0 then 0 else if expBits bits = 0 then -1022 else (expBits bits : Int) - 1023))
    (hv : hexValue (if expBits bits = 0 then 0 else 1) fp x = magnitude bits) :
    x < 0 ↔ magnitude bits ≠ 0 ∧ magnitude bits < 1 := by
  have hlt := valueIn_lt (b := 16) (by norm_num) fp (fun c hc => (hd c hc).2)
  have h0 : (0 : ℚ) ≤ (valueIn 16 fp : ℚ) / 16 ^ fp.length := by positivity
  have h1 : (valueIn 16 fp : ℚ) / 16 ^ fp.length < 1 := by
    rw [div_lt_one (by positivity)]; exact_mod_cast hlt
  have hz : (0 : ℚ) < 2 ^ x := by positivity
  by_cases hm : magnitude bits = 0
  · rw [if_pos hm] at hx; subst hx; simp [hm]
  · rw [if_neg hm] at hx
    by_cases he : expBits bits = 0
    · rw [if_pos he] at hx hv
      refine ⟨fun h => ⟨hm, ?_⟩, fun _ => by omega⟩
      rw [← hv, hexValue]
      have : (2 : ℚ) ^ x ≤ 1 := zpow_le_one_of_nonpos₀ (by norm_num) (by omega)
      push_cast
      nlinarith
    · rw [if_neg he] at hv
      unfold hexValue at hv
      push_cast at hv
      constructor
      · intro h
        refine ⟨hm, ?_⟩
        have : (2 : ℚ) ^ (x + 1) ≤ 1 := zpow_le_one_of_nonpos₀ (by norm_num) (by omega)
        rw [zpow_add₀ (by norm_num), zpow_one] at this
        rw [← hv]; nlinarith
      · rintro ⟨_, h⟩
        by_contra hc
        have : (1 : ℚ) ≤ 2 ^ x := one_le_zpow₀ (by norm_num) (by omega)
        rw [← hv] at h; nlinarith

end JavaFormatter

open JavaFormatter

/-- **C98 (`%a`).** Where `String.format` prints the text of `Double.toHexString` (`%a` without a precision), the
library prints the same exactly for the numbers strictly between -1 and 1 other than zero; for all others it has a `+`
after the `p`. -/
theorem C98_hex (dates : DateSyntax) (env : DateEnv) (jdk : JdkEnv) (d : Directive) (h : d.Ok dates) (hp : d.Plain)
    (hc : d.conv = ch! 'a') (hn : d.prec.precision = none) (bits : BitVec 64) (hf : finite bits) (e : Entry)
    (he : IsDouble e bits) (rest : List Traits) (body : JStr) (hb : HexString bits body) :
    (printf dates env d.text (e.toTraits jdk :: rest) = .ok (d.field (d.sign (negative bits) ++ js! "0x") body) ↔
      magnitude bits ≠ 0 ∧ magnitude bits < 1) ∧
    (¬ (magnitude bits ≠ 0 ∧ magnitude bits < 1) → ∃ m ds, body = m ++ js! "p" ++ ds ∧
      printf dates env d.text (e.toTraits jdk :: rest) =
        .ok (d.field (d.sign (negative bits) ++ js! "0x") (m ++ js! "p+" ++ ds))) := by
  obtain ⟨fp, x, ds, b1, b2, b3, b4, b5, b6, b7⟩ := hb
  obtain ⟨fp', x', body', p1, p2, p3, p4, p5, p6⟩ := C27_exact dates env jdk d h hp hc hn bits hf e he rest
  have hx : x' = x := p4.trans b4.symm
  subst hx
  have hfp := hex_digits_unique b1 p2.2.1 b2 p5 b3 p6 (b5.trans p3.symm)
  subst hfp
  obtain ⟨ds', q1, q2⟩ := p2.2.2
  have hds := q1.unique (by norm_num) (by norm_num) b6
  subst hds
  have hneg := hex_exponent_neg b1 b4 b5
  have hlead : (48 + if expBits bits = 0 then 0 else 1) = (if expBits bits = 0 then ch! '0' else ch! '1') := by
    split <;> rfl
  rw [← hneg, p1]
  by_cases hx : x' < 0
  · refine ⟨⟨fun _ => hx, fun _ => ?_⟩, fun hn => absurd hx hn⟩
    rw [q2, b7, if_pos hx, hlead, if_pos hx]; rfl
  · have hb : body' = ((if expBits bits = 0 then ch! '0' else ch! '1') :: ch! '.' :: fp) ++ js! "p+" ++ ds' := by
      rw [q2, if_neg hx, hlead]; simp
    have hb' : body = ((if expBits bits = 0 then ch! '0' else ch! '1') :: ch! '.' :: fp) ++ js! "p" ++ ds' := by
      rw [b7, if_neg hx]; simp
    refine ⟨⟨fun he => ?_, fun he => absurd he hx⟩, fun _ => ⟨_, ds', hb', by rw [hb]; rfl⟩⟩
    exfalso
    have := congrArg (List.count 43) (Except.ok.inj he)
    rw [Directive.field, Directive.field, count_plus_field, count_plus_field, hb, hb'] at this
    simp only [List.count_append, Directive.sign] at this
    have e1 : List.count 43 (js! "p+") = 1 := by decide
    have e2 : List.count 43 (js! "p") = 0 := by decide
    omega

/-- **C98 (`%a`, the text of `Double.toHexString`).** There is exactly one. -/
theorem C98_hex_text (bits : BitVec 64) (hf : finite bits) : ∃! body, HexString bits body := by
  obtain ⟨fp, x, body, p1, p2, p3, p4, p5, p6⟩ := C27_exact sampleDates sampleDateEnv sampleJdk
    (bare (ch! 'a')) (bare_ok (by decide) (by decide)) ⟨by simp [bare], by simp [bare]⟩ rfl rfl bits hf (.prim (.double bits)) (.prim _) []
  obtain ⟨ds, q1, q2⟩ := p2.2.2
  refine ⟨_, ⟨fp, x, ds, p2.2.1, p5, p6, p4, p3, q1, rfl⟩, ?_⟩
  rintro s ⟨fp', x', ds', b1, b2, b3, b4, b5, b6, b7⟩
  have hx : x' = x := b4.trans p4.symm
  subst hx
  have hfp := hex_digits_unique b1 p2.2.1 b2 p5 b3 p6 (b5.trans p3.symm)
  subst hfp
  have hds := q1.unique (by norm_num) (by norm_num) b6
  subst hds
  exact b7

/-! Examples: 0.75 prints as in Java, 3 does not. -/

example : HexString 0x4008000000000000#64 (js! "1.8p1") :=
  ⟨js! "8", 1, js! "1", by decide, by decide, by decide, by decide +kernel, by decide +kernel,
    ⟨⟨by decide, by decide⟩, .inr (by decide), by decide⟩, by decide +kernel⟩
example : printf sampleDates sampleDateEnv (js! "%a|%a") [(Entry.prim (.double 0x4008000000000000#64)).toTraits sampleJdk,
    (Entry.prim (.double 0x3FE8000000000000#64)).toTraits sampleJdk] = .ok (js! "0x1.8p+1|0x1.8p-1") := by decide +kernel

end FastPrintf
