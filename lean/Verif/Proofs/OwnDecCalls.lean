/-
Objects of a subclass of `BigDecimal`: which methods are called, and what becomes of their exceptions.
-/
import Verif.Proofs.OwnDec

namespace FastPrintf
open Spec

namespace OwnDec
open OwnForms

/-- The program makes these calls, whatever was noted before, and an exception that one of them throws (by the table `T`)
is the result. -/
def Ends {α : Type} (T : DecAsked → Option Err) (x : Effect (List DecAsked) α) (calls : List DecAsked) : Prop :=
  ∃ r, (∀ log, x log = (r, log ++ calls)) ∧ ∀ c ∈ calls, ∀ e, T c = some e → r = .error e

variable {T : DecAsked → Option Err} {α β γ : Type}

theorem ends_of (r : Res α) : Ends T (.of r) [] :=
  ⟨r, fun log => by rw [List.append_nil]; rfl, fun _ h => absurd h List.not_mem_nil⟩

theorem ends_ask {c : DecAsked} {r : Res α} {f : α → Effect (List DecAsked) β} {rest : α → List DecAsked}
    (hT : T c = thrownBy r) (hf : ∀ a, r = .ok a → Ends T (f a) (rest a)) :
    Ends T (decNoting c r >>= f) (thenAsk c r rest) := by
  rcases r with e | a
  · refine ⟨.error e, fun log => rfl, fun d hd e' he => ?_⟩
    obtain rfl : d = c := List.mem_singleton.1 hd
    rw [hT] at he
    cases he
    rfl
  · obtain ⟨q, h1, h2⟩ := hf a rfl
    refine ⟨q, fun log => ?_, fun d hd e' he => ?_⟩
    · show f a (log ++ [c]) = _
      rw [h1, List.append_assoc]
      rfl
    · rcases List.mem_cons.1 hd with rfl | hd
      · rw [hT] at he
        cases he
      · exact h2 d hd e' he

theorem ends_last {c : DecAsked} {r : Res α} {f : α → Effect (List DecAsked) β} (hT : T c = thrownBy r)
    (hf : ∀ a, r = .ok a → Ends T (f a) []) : Ends T (decNoting c r >>= f) [c] := by
  have := ends_ask (T := T) (c := c) (rest := fun _ => []) hT hf
  rcases r <;> exact this

theorem ends_askSome {c : DecAsked} {r : Res (Option α)} {f : Option α → Effect (List DecAsked) β}
    {rest : α → List DecAsked} (hT : T c = thrownBy r) (hn : Ends T (f none) [])
    (hf : ∀ a, r = .ok (some a) → Ends T (f (some a)) (rest a)) :
    Ends T (decNoting c r >>= f) (thenAskSome c r rest) := by
  refine ends_ask hT fun a ha => ?_
  cases a with
  | none => exact hn
  | some a => exact hf a ha

theorem ends_null {f : α → Effect (List DecAsked) β} : Ends T (nonNull none >>= f) [] :=
  ends_of (.error .nullPointer)

theorem ends_map {x : Effect (List DecAsked) α} {f : α → Effect (List DecAsked) β} {k : α → Res β} {cs : List DecAsked}
    (hx : Ends T x cs) (hf : ∀ a, f a = .of (k a)) : Ends T (x >>= f) cs := by
  obtain ⟨r, h1, h2⟩ := hx
  refine ⟨r >>= k, fun log => ?_, fun c hc e he => ?_⟩
  · rw [bind_at, h1]
    cases r with
    | error e => rfl
    | ok a => show f a _ = _; rw [hf]; rfl
  · rw [h2 c hc e he]
    rfl

theorem noting_map (c : DecAsked) (r : Res α) (g : α → γ) (f : γ → Effect (List DecAsked) β) :
    (decNoting c (r.map g) >>= f) = (decNoting c r >>= fun a => f (g a)) := by
  cases r <;> rfl

/-- The table tells what the methods of the kept object throw. -/
structure Agrees (T : DecAsked → Option Err) (k : DecKeptTold) : Prop where
  unscaled : T .unscaledValue = thrownBy k.unscaled
  scale : T .scale = thrownBy k.scale
  precision : T .precision = thrownBy k.precision
  setScale : ∀ n, T (.setScale n) = thrownBy (k.setScale n)
  zero : T .equalsZero = thrownBy k.zero
  compare : ∀ n, T (.compareTo n) = thrownBy (k.compare n)
  scaledUnscaled : ∀ n, T (.scaledUnscaledValue n) = k.scaledThrows (thrownBy ·.unscaled) n
  scaledScale : ∀ n, T (.scaledScale n) = k.scaledThrows (thrownBy ·.scale) n

theorem ends_decimal0 {c d : DecAsked} {u : Res (Option Int)} {sc : Res Int} (hc : T c = thrownBy u)
    (hd : T d = thrownBy sc) : Ends T (decimalLayout0 ⟨decNoting c u, decNoting d sc⟩) (thenAsk c u fun _ => [d]) := by
  refine ends_ask hc fun a _ => ends_last hd fun s _ => ?_
  cases a with
  | none => exact ends_null
  | some u => exact ends_of (decimalText (intToString u) s)

theorem ends_decimal {k : DecKeptTold} (h : Agrees T k) (p : Int) :
    Ends T (decimalLayout k.noted p) (decimalCalls k p) := by
  refine ends_ask h.scale fun s _ => ?_
  by_cases c : s > p
  · rw [if_pos c, if_neg (by omega)]
    refine ends_ask h.precision fun n _ => ?_
    by_cases c2 : n ≤ s
    · rw [if_pos c2, if_pos c2]
      show Ends T (decNoting (.setScale p) ((k.setScale p).map _) >>= _) _
      rw [noting_map]
      refine ends_askSome (h.setScale p) ends_null fun w hw => ?_
      refine ends_decimal0 ?_ ?_
      · rw [h.scaledUnscaled]; unfold DecKeptTold.scaledThrows; rw [hw]
      · rw [h.scaledScale]; unfold DecKeptTold.scaledThrows; rw [hw]
    · rw [if_neg c2, if_neg c2]
      refine ends_last h.unscaled fun u _ => ?_
      unfold mathContext
      by_cases c3 : wrap32 (n - wrap32 (s - p)) < 0
      · rw [if_pos c3]
        exact ends_of (.error .illegalArgument)
      · rw [if_neg c3]
        cases u with
        | none => exact ends_of (.error .nullPointer)
        | some u => exact ends_of (rounded _ u s >>= fun q => decimalText q.1 q.2)
  · rw [if_neg c, if_pos (by omega)]
    exact ends_decimal0 h.unscaled h.scale

theorem ends_scientific {k : DecKeptTold} (h : Agrees T k) {p : Int} (hp : 0 ≤ p) (hp' : p ≤ 2147483646) :
    Ends T (scientificLayout k.noted p) (scientificCalls k p) := by
  refine ends_ask h.scale fun s _ => ends_ask h.precision fun n _ => ?_
  unfold mathContext
  have c : ((if p > wrap32 (n - 1) then n else wrap32 (p + 1)) < 0) ↔ (n < 0 ∧ wrap32 (n - 1) < p) := by
    rw [wrap32_eq (x := p + 1) (by omega)]
    split_ifs <;> omega
  by_cases c3 : n < 0 ∧ wrap32 (n - 1) < p
  · rw [if_pos (c.2 c3), if_pos c3]
    exact ends_of (.error .illegalArgument)
  · rw [if_neg (fun h => c3 (c.1 h)), if_neg c3]
    refine ends_last h.unscaled fun u _ => ?_
    cases u with
    | none => exact ends_null
    | some u => exact ends_of (rounded _ u s >>= fun q => scientificText q.1 q.2)

theorem branches {σ : Type} (z : Effect σ Bool) (x y : Effect σ Int) (A B : Effect σ α) :
    ((z >>= fun zero => if zero then .of (.ok true)
      else x >>= fun c => if c ≥ 0 then y >>= fun c => .of (.ok (decide (c < 0))) else .of (.ok false)) >>= fun plain =>
      if plain then A else B) =
    (z >>= fun zero => if zero then A else x >>= fun c => if c < 0 then B else y >>= fun d => if d < 0 then A else B) := by
  funext s
  simp only [bind_at]
  rcases z s with ⟨_ | _ | _, s⟩
  · rfl
  · simp only [Bool.false_eq_true, if_false, bind_at]
    rcases x s with ⟨_ | c, s⟩
    · rfl
    · dsimp only
      by_cases h : c ≥ 0
      · rw [if_pos h, if_neg (by omega)]
        simp only [bind_at]
        rcases y s with ⟨_ | d, s⟩
        · rfl
        · by_cases h : d < 0 <;> simp [Effect.of, h]
      · rw [if_neg h, if_pos (by omega)]
        rfl
  · rfl

theorem ends_general {k : DecKeptTold} (h : Agrees T k) {p : Int} (hp : 1 ≤ p) (hp' : p ≤ 2147483647) :
    Ends T (generalLayout k.noted p) (generalCalls k p) := by
  have hs := ends_scientific h (p := p - 1) (by omega) (by omega)
  have hd : Ends T (k.noted.scale >>= fun scale => k.noted.unscaledValue >>= fun u => nonNull u >>= fun u =>
      decimalLayout k.noted (wrap32 (p - wrap32 (wrap32 (-scale) + ((intToString u).length - 1)) - 1)))
      (thenAsk .scale k.scale fun s => thenAskSome .unscaledValue k.unscaled fun u =>
        decimalCalls k (wrap32 (p - exponentAsInt u s - 1))) := by
    refine ends_ask h.scale fun s _ => ends_askSome h.unscaled ends_null fun u _ => ?_
    have e : exponentAsInt u s = wrap32 (wrap32 (-s) + ((intToString u).length - 1)) := by
      unfold exponentAsInt wrap32
      rw [Int.bmod_add_bmod]
      congr 1
      omega
    rw [e]
    exact ends_decimal h _
  have e : generalLayout k.noted p = (k.noted.equalsZero >>= fun z =>
      if z then (k.noted.scale >>= fun scale => k.noted.unscaledValue >>= fun u => nonNull u >>= fun u =>
        decimalLayout k.noted (wrap32 (p - wrap32 (wrap32 (-scale) + ((intToString u).length - 1)) - 1)))
      else k.noted.compareTo 4 >>= fun c => if c < 0 then scientificLayout k.noted (p - 1)
        else k.noted.compareTo (-p) >>= fun d =>
        if d < 0 then (k.noted.scale >>= fun scale => k.noted.unscaledValue >>= fun u => nonNull u >>= fun u =>
          decimalLayout k.noted (wrap32 (p - wrap32 (wrap32 (-scale) + ((intToString u).length - 1)) - 1)))
        else scientificLayout k.noted (p - 1)) := by
    have e := branches k.noted.equalsZero (k.noted.compareTo 4) (k.noted.compareTo (-p))
      (k.noted.scale >>= fun scale => k.noted.unscaledValue >>= fun u => nonNull u >>= fun u =>
        decimalLayout k.noted (wrap32 (p - wrap32 (wrap32 (-scale) + ((intToString u).length - 1)) - 1)))
      (scientificLayout k.noted (p - 1))
    rw [← e]
    unfold generalLayout inPlainRange
    rw [wrap32_eq (x := -p) (by omega), wrap32_eq (x := p - 1) (by omega)]
  rw [e]
  unfold generalCalls
  refine ends_ask h.zero fun z _ => ?_
  cases z with
  | true => exact hd
  | false =>
    rw [if_neg (by decide), if_neg (by decide)]
    refine ends_ask (h.compare 4) fun c _ => ?_
    by_cases h1 : c < 0
    · rw [if_pos h1, if_pos h1]; exact hs
    · rw [if_neg h1, if_neg h1]
      refine ends_ask (h.compare (-p)) fun d _ => ?_
      by_cases h2 : d < 0
      · rw [if_pos h2, if_pos h2]; exact hd
      · rw [if_neg h2, if_neg h2]; exact hs

/-- What the object that `abs()` gave is asked for, if there is one. -/
def keptRest (kept : Option DecKeptTold) (rest : DecKeptTold → List DecAsked) : List DecAsked :=
  match kept with
  | some k => rest k
  | none => []

/-- A conversion asks for a layout, and then only computes. -/
theorem ends_layout {kept : Option DecKeptTold} {L : Kept (List DecAsked) → Effect (List DecAsked) FloatLayout}
    {rest : DecKeptTold → List DecAsked} {f : Option FloatLayout → Effect (List DecAsked) Seq}
    {g : FloatLayout → Res Seq} (hf : ∀ l, f (some l) = .of (g l))
    (h : ∀ k, kept = some k → Ends T (L k.noted) (rest k)) :
    Ends T (onKept (kept.map DecKeptTold.noted) L >>= f) (keptRest kept rest) := by
  cases kept with
  | none => exact ends_of (.error .nullPointer)
  | some k =>
    have e : (onKept ((some k).map DecKeptTold.noted) L >>= f) = (L k.noted >>= fun l => f (some l)) := by
      funext log
      show ((L k.noted >>= fun l => .of (.ok (some l))) >>= f) log = _
      simp only [bind_at]
      rcases L k.noted log with ⟨_ | _, _⟩ <;> rfl
    rw [e]
    exact ends_map (h k rfl) hf

theorem ends_float {v : DecTold} {ref : RefSlot} {f : FloatProg (List DecAsked) → Effect (List DecAsked) Seq}
    {rest : DecKeptTold → List DecAsked}
    (h : ∀ kept k, v.abs = .ok kept → Ends v.throws (f (form (kept.map DecKeptTold.noted) k))
      (keptRest kept rest)) :
    Ends v.throws (onFloat (traits v.noted ref) f) (layoutCalls v rest) := by
  have e : onFloat (traits v.noted ref) f =
      (decNoting .abs v.abs >>= fun kept => decNoting .signum v.signum >>= fun k =>
        f (form (kept.map DecKeptTold.noted) k)) := by
    funext log
    rcases v with ⟨vi, _ | va, _ | vs, vt, vn⟩ <;> rfl
  rw [e]
  refine ends_ask rfl fun kept hk => ends_ask rfl fun k _ => ?_
  have := h kept k hk
  cases kept <;> exact this

theorem agrees_of {v : DecTold} {k : DecKeptTold} (h : v.abs = .ok (some k)) : Agrees v.throws k := by
  constructor <;> (try intro n) <;> (unfold DecTold.throws; rw [h]; rfl)

open SeqFormatter in
theorem ends_f {v : DecTold} {ref : RefSlot} {ctx : FormatContext} :
    Ends v.throws (onFloat (traits v.noted ref) (OwnForms.f ctx)) (layoutCalls v (decimalCalls · (precision6 ctx))) := by
  refine ends_float fun kept k hk => ?_
  show Ends _ ((form (kept.map DecKeptTold.noted) k).decimalLayout (precision6 ctx) >>= _) _
  refine ends_layout (kept := kept) (L := (OwnDec.decimalLayout · (precision6 ctx)))
    (g := fun l => formatFractionalPart l.mantissa (precision6 ctx) (ctx.hasFlag .alternate) >>= fun m =>
      signAndJustify ctx m (decide (k < 0))) (fun l => ?_) fun k hk' => ends_decimal (agrees_of (hk.trans (congrArg _ hk'))) _
  exact of_bind _ _ fun _ => rfl

open SeqFormatter in
theorem ends_e {v : DecTold} {ref : RefSlot} {ctx : FormatContext} (hp : 0 ≤ precision6 ctx)
    (hp' : precision6 ctx ≤ 2147483646) :
    Ends v.throws (onFloat (traits v.noted ref) (OwnForms.e ctx)) (layoutCalls v (scientificCalls · (precision6 ctx))) := by
  refine ends_float fun kept k hk => ?_
  show Ends _ ((form (kept.map DecKeptTold.noted) k).scientificLayout (precision6 ctx) >>= _) _
  refine ends_layout (kept := kept) (L := (OwnDec.scientificLayout · (precision6 ctx)))
    (g := fun l => (do
      let v0 ← formatFractionalPart l.mantissa (precision6 ctx) (ctx.hasFlag .alternate)
      appendExponent (v0.append (Seq.ch (ch! 'e'))) l.exponent) >>= fun m =>
      signAndJustify ctx m (decide (k < 0))) (fun l => ?_) fun k hk' => ends_scientific (agrees_of (hk.trans (congrArg _ hk'))) hp hp'
  exact of_bind _ _ fun _ => rfl

open SeqFormatter in
theorem ends_g {v : DecTold} {ref : RefSlot} {ctx : FormatContext} (hp : 1 ≤ gPrecision ctx)
    (hp' : gPrecision ctx ≤ 2147483647) :
    Ends v.throws (onFloat (traits v.noted ref) (OwnForms.g ctx)) (layoutCalls v (generalCalls · (gPrecision ctx))) := by
  refine ends_float fun kept k hk => ?_
  show Ends _ ((form (kept.map DecKeptTold.noted) k).generalLayout (gPrecision ctx) >>= _) _
  refine ends_layout (kept := kept) (L := (OwnDec.generalLayout · (gPrecision ctx)))
    (g := fun l => (match l.exponent with
      | none => formatGDecimal ctx l (gPrecision ctx)
      | some ex => formatGScientific ctx l.mantissa ex) >>= fun m =>
      signAndJustify ctx m (decide (k < 0))) (fun l => ?_) fun k hk' => ends_general (agrees_of (hk.trans (congrArg _ hk'))) hp hp'
  exact of_bind _ _ fun _ => rfl

theorem ends_a {v : DecTold} {ref : RefSlot} {ctx : FormatContext} :
    Ends v.throws (onFloat (traits v.noted ref) (OwnForms.a ctx)) (layoutCalls v fun _ => [.keptToString]) := by
  refine ends_float fun kept k hk => ?_
  cases kept with
  | none => exact ends_of (.error (.printf (.wrongType .bigDecimalHex)))
  | some x =>
    refine ⟨.error (.printf (.wrongType .bigDecimalHex)), fun log => rfl, fun c hc e he => ?_⟩
    obtain rfl : c = .keptToString := List.mem_singleton.1 hc
    unfold DecTold.throws at he
    rw [hk] at he
    cases he

theorem ends_upper {x : Effect (List DecAsked) Seq} {cs : List DecAsked} (h : Ends T x cs) : Ends T (upper x) cs :=
  ends_map h fun _ => rfl

theorem ends_integer {v : DecTold} {ref : RefSlot} {f : IntProg (List DecAsked) → Effect (List DecAsked) Seq}
    {g : Int → Res Seq} (h : ∀ n, f (ownInt (IntForm.ofBigInteger n)) = .of (g n)) :
    Ends v.throws (onInt (traits v.noted ref) f) [.toBigInteger] := by
  have e : onInt (traits v.noted ref) f = (decNoting .toBigInteger v.integer >>= fun n => nonNull n >>= fun n =>
      f (OwnBig.form (some (jdkKept n)) (signumOf n))) := by
    funext log
    rcases v with ⟨_ | _ | vi, va, vs, vt, vn⟩ <;> rfl
  rw [e]
  refine ends_last rfl fun n _ => ?_
  cases n with
  | none => exact ends_null
  | some n =>
    show Ends _ (f _) []
    rw [jdk_form, h]
    exact ends_of _

theorem ends_s {v : DecTold} {ref : RefSlot} {ctx : FormatContext} :
    Ends v.throws (OwnForms.s ctx (traits v.noted ref)) [.toString] := by
  have e : OwnForms.s ctx (traits v.noted ref) = (decNoting .toString v.text >>= fun x => nonNull x >>= fun x => .of
      (if ctx.isPrecisionSet && ctx.precision < (Seq.wrap x).length then do
        SeqFormatter.spaceJustify ctx (← (Seq.wrap x).subSequence 0 ctx.precision)
      else SeqFormatter.spaceJustify ctx (Seq.wrap x))) := by
    funext log
    rcases v with ⟨vi, va, vs, _ | _ | vt, vn⟩ <;> rfl
  rw [e]
  refine ends_last rfl fun n _ => ?_
  cases n with
  | none => exact ends_null
  | some n => exact ends_of _

theorem ends_c {v : DecTold} {ref : RefSlot} {ctx : FormatContext} :
    Ends v.throws (OwnForms.c ctx (traits v.noted ref)) [.intValue] := by
  have e : OwnForms.c ctx (traits v.noted ref) = (decNoting .intValue v.int >>= fun x => .of
      (SeqFormatter.spaceJustify ctx (Seq.ch (toChar x)))) := by
    funext log
    rcases v with ⟨vi, va, vs, vt, _ | vn⟩ <;> rfl
  rw [e]
  exact ends_last rfl fun n _ => ends_of _

end OwnDec
end FastPrintf
