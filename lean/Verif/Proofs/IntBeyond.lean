/-
`%f` of an integer with more digits before the point than an `int` can count.
-/
import Verif.Proofs.IntOverflow

namespace FastPrintf
namespace Narrow

open FastPrintf.Seq Spec

/-- The first character of a rope whose first leaf has it. -/
theorem indexOf_front {s : Seq} (h : Solid s) {c : JChar} {a : Atomic} {rest : List Atomic} (hf : s.flat = a :: rest)
    {i : Nat} (hi : firstIndex a.text c = i) (hi2 : i ≤ 2147483647) : indexOf s c = .ok i := by
  have hw : a.WF := h.flat a (by rw [hf]; simp)
  have loop : indexOfLoop c (a :: rest) 0 = .ok i := by
    unfold indexOfLoop
    rw [Atomic.indexOf_ok hw, hi, bind_ok, if_pos (by omega), Int.add_zero, wrap_id (by omega) (by omega)]
    rfl
  cases s with
  | atom b =>
    rw [Seq.flat] at hf
    obtain ⟨rfl, -⟩ := List.cons.inj hf
    show b.indexOf c = _
    rw [Atomic.indexOf_ok hw, hi]
  | concat l r n k =>
    rw [indexOf, h.leaves, bind_ok, hf]
    · exact loop
    · simp
  | array es n =>
    rw [indexOf, h.leaves, bind_ok, hf]
    · exact loop
    · simp

theorem wrap_sub {x : Int} (h1 : 2147483648 ≤ x) (h2 : x < 6442450944) : wrap32 x = x - 4294967296 := by
  have := wrap_add_right x (-4294967296)
  have e0 : wrap32 (-4294967296) = 0 := by decide
  rw [e0, Int.add_zero] at this
  rw [this, wrap_id (by omega) (by omega)]
  omega

theorem wrap_plus {x : Int} (h1 : -6442450944 ≤ x) (h2 : x < -2147483648) : wrap32 x = x + 4294967296 := by
  have := wrap_add_right x 4294967296
  have e0 : wrap32 4294967296 = 0 := by decide
  rw [e0, Int.add_zero] at this
  rw [this, wrap_id (by omega) (by omega)]

theorem prepend_front (m : Seq) {a : Atomic} (h : (Seq.atom a).isEmpty = false) :
    ∃ rest, (prepend m (.atom a)).flat = a :: rest := by
  unfold prepend
  split
  · exact ⟨[], rfl⟩
  · rw [h, if_neg (by simp), mkConcat_flat]
    exact ⟨m.flat, rfl⟩

theorem prepend_some {l r : Seq} (hr : Wrapped r) (h1 : 1 ≤ r.text.length) (h2 : r.text.length ≤ 2147483647) :
    (prepend l r).text = r.text ++ l.text := by
  rw [prepend_text hr, if_neg]
  rintro ⟨h, -⟩
  rw [wrap_id (by omega) (by omega)] at h
  omega

theorem append_some {l r : Seq} (hr : Wrapped r) (h1 : 1 ≤ r.text.length) (h2 : r.text.length ≤ 2147483647) :
    (append l r).text = l.text ++ r.text := by
  rw [append_text hr, if_neg]
  rintro ⟨h, -⟩
  rw [wrap_id (by omega) (by omega)] at h
  omega

/-- The layout of an integer with too many digits: the digits go behind the point. -/
theorem layout_beyond {u n k : Nat} (hn : (toRadix 10 u).length = n) (hn2 : n ≤ 2147483647) (hk : k ≤ 2147483648)
    (hl : 2147483648 < n + k) {p : Int} (hp : 0 ≤ p) :
    ∃ m rest, decimalLayout ⟨u, -(k : Int)⟩ p = .ok ⟨m, none⟩ ∧ Wrapped m ∧ m.flat = Atomic.wrap (js! "0.") :: rest ∧
      m.text = js! "0." ++ (List.replicate (4294967296 - (n + k)) 48 ++ toRadix 10 u) := by
  have e : BigDec.digits ⟨u, -(k : Int)⟩ = toRadix 10 u := rfl
  unfold decimalLayout
  rw [if_neg (by dsimp only; omega)]
  unfold decimalLayout0
  dsimp only
  rw [if_neg (by omega), e, hn, wrap_plus (x := -(k : Int) - n) (by omega) (by omega), if_pos (by omega), if_pos (by omega)]
  obtain ⟨z, z1, z2, z3⟩ := repeated_wrapped (c := 48) (n := -(k : Int) - n + 4294967296) (by omega) (by omega)
  rw [z1]
  simp only [bind_ok]
  have w0 : Wrapped (Seq.wrap (js! "0.")) := wrapped_wrap (by decide)
  have t0 : (Seq.wrap (js! "0.")).text = js! "0." := wrap_text _
  have e1 : (js! "0.").length = 2 := rfl
  obtain ⟨rest, hr⟩ := prepend_front (prepend (Seq.wrap (toRadix 10 u)) z) (a := Atomic.wrap (js! "0.")) rfl
  refine ⟨_, rest, rfl, prepend_wrapped (prepend_wrapped (wrapped_wrap (by omega)) z2) w0, hr, ?_⟩
  rw [prepend_some w0 (by rw [t0, e1]; omega) (by rw [t0, e1]; omega), prepend_some z2 (by rw [z3, List.length_replicate]; omega)
    (by rw [z3, List.length_replicate]; omega), t0, z3, wrap_text,
    show (-(k : Int) - n + 4294967296).toNat = 4294967296 - (n + k) by omega]

theorem beyond_length {u n k : Nat} (hn : (toRadix 10 u).length = n) (hl : n + k ≤ 4294967296) :
    (js! "0." ++ (List.replicate (4294967296 - (n + k)) 48 ++ toRadix 10 u)).length = 4294967298 - k := by
  have e1 : (js! "0.").length = 2 := rfl
  rw [List.length_append, List.length_append, List.length_replicate, e1, hn]
  omega

theorem frac_beyond {m : Seq} (h : Wrapped m) {rest : List Atomic} (hf : m.flat = Atomic.wrap (js! "0.") :: rest)
    {k : Nat} (hm : m.text.length = 4294967298 - k) (hk1 : 1 ≤ k) (hk : k ≤ 2147483648) {p : Int} (hp : 0 ≤ p)
    (b : Bool) :
    formatFractionalPart m p b = (Seq.repeated 48 (wrap32 (p + k)) >>= fun z => .ok (append m z)) := by
  have hi : indexOf m 46 = .ok ((1 : Nat) : Int) :=
    indexOf_front h.solid hf (i := 1) (by decide) (by omega)
  have hlen : m.length = 2 - (k : Int) := by
    rw [h.length, hm, wrap_sub (by omega) (by omega)]
    omega
  unfold formatFractionalPart
  rw [hi, bind_ok]
  simp only [show ¬ (((1 : Nat) : Int) = -1) by omega, and_false, if_false, show ((1 : Nat) : Int) ≥ 0 by omega, if_true,
    show ¬ (((1 : Nat) : Int) < 0) by omega]
  rw [hlen, wrap_id (x := ((1 : Nat) : Int) + 1) (by omega) (by omega),
    wrap_id (x := 2 - (k : Int) - (((1 : Nat) : Int) + 1)) (by omega) (by omega), if_neg (by omega),
    show p - (2 - (k : Int) - (((1 : Nat) : Int) + 1)) = p + k by omega]
  rfl

/-- What `%f` writes of an integer with too many digits: a number below one. -/
def beyondText (u : Int) (n k p : Nat) : JStr :=
  (if u < 0 then [45] else []) ++ (js! "0." ++ (List.replicate (4294967296 - (n + k)) 48 ++ toRadix 10 u.natAbs) ++
    List.replicate (p + k) 48)

theorem f_beyond {ctx : FormatContext} (hx : Unadorned ctx) {u : Int} {n k p : Nat}
    (hn : (toRadix 10 u.natAbs).length = n) (hn2 : n ≤ 2147483647) (hl : 2147483648 < n + k)
    (hp : SeqFormatter.precision6 ctx = p) (hp2 : p ≤ 65536) (hpk : p + k ≤ 2147483647) :
    ∃ m, f ctx (ofBigDecimal u (-(k : Int))) = .ok m ∧ Wrapped m ∧ m.text = beyondText u n k p := by
  obtain ⟨m, rest, m1, m2, m3, m4⟩ := layout_beyond hn hn2 (k := k) (by omega) hl (p := p) (by omega)
  have hm : m.text.length = 4294967298 - k := by rw [m4]; exact beyond_length hn (by omega)
  have hf := frac_beyond m2 m3 hm (by omega) (by omega) (p := p) (by omega) (ctx.hasFlag .alternate)
  obtain ⟨z, z1, z2, z3⟩ := repeated_wrapped (c := 48) (n := (p : Int) + k) (by omega) (by omega)
  rw [wrap_id (by omega) (by omega), z1, bind_ok] at hf
  have q2 : Wrapped (append m z) := append_wrapped m2 z2
  have q3 : (append m z).text = js! "0." ++ (List.replicate (4294967296 - (n + k)) 48 ++ toRadix 10 u.natAbs) ++
      List.replicate (p + k) 48 := by
    rw [append_some z2 (by rw [z3, List.length_replicate]; omega) (by rw [z3, List.length_replicate]; omega), m4, z3,
      show ((p : Int) + k).toNat = p + k by omega]
  have hc : (Seq.ch 45).text = [45] := ch_text _
  have e : (ofBigDecimal u (-(k : Int))).isNegative = decide (u < 0) := by
    show decide ((if u < 0 then (-1 : Int) else if u = 0 then 0 else 1) < 0) = _
    split_ifs <;> simp_all
  have s2 : Wrapped (sign ctx (append m z) (ofBigDecimal u (-(k : Int))).isNegative) := by
    unfold sign
    split_ifs
    · exact prepend_wrapped q2 (wrapped_ch _)
    · exact prepend_wrapped q2 (wrapped_ch _)
    · exact prepend_wrapped q2 (wrapped_ch _)
    · exact q2
  have s3 : (sign ctx (append m z) (ofBigDecimal u (-(k : Int))).isNegative).text = beyondText u n k p := by
    unfold sign beyondText
    rw [e, hx.plus, hx.space]
    by_cases hu : u < 0
    · simp only [hu, decide_true, if_true]
      rw [prepend_some (wrapped_ch _) (by rw [hc]; simp) (by rw [hc]; simp), hc, q3]
    · simp only [hu, decide_false, Bool.false_eq_true, if_false]
      rw [q3]
      rfl
  refine ⟨_, ?_, s2, s3⟩
  have hlen : 0 ≤ (sign ctx (append m z) (ofBigDecimal u (-(k : Int))).isNegative).length := by
    rw [s2.length, s3]
    have hb := beyond_length (u := u.natAbs) (k := k) hn (by omega)
    unfold beyondText
    rw [List.length_append, List.length_append, hb, List.length_replicate]
    split_ifs
    · rw [wrap_sub (by simp; omega) (by simp; omega)]; simp; omega
    · rw [wrap_sub (by simp; omega) (by simp; omega)]; simp; omega
  unfold f
  have e1 : (ofBigDecimal u (-(k : Int))).isNaN = false := rfl
  have e2 : (ofBigDecimal u (-(k : Int))).isInfinite = false := rfl
  have e3 : (ofBigDecimal u (-(k : Int))).decimalLayout p = decimalLayout ⟨u.natAbs, -(k : Int)⟩ p := rfl
  rw [e1, e2, if_neg (by simp), hp, e3, m1]
  simp only [bind_ok]
  rw [hf, bind_ok]
  unfold signAndJustify
  rw [hx.zero, hx.left]
  simp only [Bool.not_false, Bool.true_or, if_true]
  unfold spaceJustify
  rw [hx.width, if_neg (by omega)]

theorem f_beyond_refused {ctx : FormatContext} {u : Int} {n k p : Nat}
    (hn : (toRadix 10 u.natAbs).length = n) (hn2 : n ≤ 2147483647) (hl : 2147483648 < n + k) (hk : k ≤ 2147483648)
    (hp : SeqFormatter.precision6 ctx = p) (hp2 : p ≤ 65536) (hpk : 2147483647 < p + k) :
    f ctx (ofBigDecimal u (-(k : Int))) = .error .illegalArgument := by
  obtain ⟨m, rest, m1, m2, m3, m4⟩ := layout_beyond hn hn2 hk hl (p := p) (by omega)
  have hm : m.text.length = 4294967298 - k := by rw [m4]; exact beyond_length hn (by omega)
  have hf := frac_beyond m2 m3 hm (by omega) hk (p := p) (by omega) (ctx.hasFlag .alternate)
  have hz : Seq.repeated 48 (wrap32 ((p : Int) + k)) = .error .illegalArgument := by
    unfold Seq.repeated Atomic.mkRepeated
    rw [wrap_sub (by omega) (by omega), if_neg (by omega)]
    rfl
  unfold f
  have e1 : (ofBigDecimal u (-(k : Int))).isNaN = false := rfl
  have e2 : (ofBigDecimal u (-(k : Int))).isInfinite = false := rfl
  have e3 : (ofBigDecimal u (-(k : Int))).decimalLayout p = decimalLayout ⟨u.natAbs, -(k : Int)⟩ p := rfl
  rw [e1, e2, if_neg (by simp), hp, e3, m1]
  simp only [bind_ok]
  rw [hf, hz]
  rfl

end Narrow
end FastPrintf
