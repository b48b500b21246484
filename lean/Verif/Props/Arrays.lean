/-
C63: arrays under `%s`.
-/
import Verif.Props.Semantics
import Verif.Props.Messages
import Verif.Spec.Arrays

namespace FastPrintf
open Spec

/-! ### Base64 -/

theorem positional_append (b : Nat) (xs ys : List Nat) :
    positional b (xs ++ ys) = positional b xs * b ^ ys.length + positional b ys := by
  induction xs with
  | nil => simp [positional]
  | cons x xs ih =>
    simp only [List.cons_append, positional, ih, List.length_append, pow_add]
    ring

theorem positional_inj {b : Nat} : ∀ {xs ys : List Nat}, xs.length = ys.length → (∀ x ∈ xs, x < b) →
    (∀ y ∈ ys, y < b) → positional b xs = positional b ys → xs = ys := by
  have hlt : ∀ zs : List Nat, (∀ z ∈ zs, z < b) → positional b zs < b ^ zs.length := by
    intro zs
    induction zs with
    | nil => intro _; simp [positional]
    | cons z zs ih =>
      intro h
      have h1 := ih fun w hw => h w (List.mem_cons_of_mem _ hw)
      have h2 : z + 1 ≤ b := h z List.mem_cons_self
      have h3 := Nat.mul_le_mul_right (b ^ zs.length) h2
      simp only [positional, List.length_cons, pow_succ]
      rw [Nat.add_mul] at h3
      rw [Nat.mul_comm (b ^ zs.length) b]
      omega
  intro xs
  induction xs with
  | nil => intro ys hl _ _ _; exact (List.length_eq_zero_iff.1 hl.symm).symm
  | cons x xs ih =>
    intro ys hl hx hy h
    cases ys with
    | nil => simp at hl
    | cons y ys =>
      have hl' : xs.length = ys.length := by simpa using hl
      have h1 := hlt xs fun w hw => hx w (List.mem_cons_of_mem _ hw)
      have h2 := hlt ys fun w hw => hy w (List.mem_cons_of_mem _ hw)
      simp only [positional, hl'] at h h1
      have hp : 0 < b ^ ys.length := by omega
      have hxy : x = y := by
        have e1 : (x * b ^ ys.length + positional b xs) / b ^ ys.length = x := by
          rw [Nat.mul_comm, Nat.mul_add_div hp, Nat.div_eq_of_lt h1, Nat.add_zero]
        have e2 : (y * b ^ ys.length + positional b ys) / b ^ ys.length = y := by
          rw [Nat.mul_comm, Nat.mul_add_div hp, Nat.div_eq_of_lt h2, Nat.add_zero]
        rw [← e1, ← e2, h]
      subst hxy
      rw [ih hl' (fun w hw => hx w (List.mem_cons_of_mem _ hw))
        (fun w hw => hy w (List.mem_cons_of_mem _ hw)) (by omega)]

theorem alphabet_at {i : Nat} (h : i < 64) : base64Alphabet[i]? = some (JArray.base64Char i) := by
  have : ∀ i : Fin 64, base64Alphabet[i.1]? = some (JArray.base64Char i.1) := by decide +kernel
  exact this ⟨i, h⟩

theorem positional_four (v : Nat) (h : v < 16777216) :
    positional 64 [v / 262144 % 64, v / 4096 % 64, v / 64 % 64, v % 64] = v := by
  simp [positional]; omega

theorem positional_three (a b c : Nat) : positional 256 [a, b, c] = a * 65536 + b * 256 + c := by
  simp [positional]; omega

/-- The encoder writes Base64. -/
theorem base64_text : ∀ bytes : List Nat, (∀ b ∈ bytes, b < 256) → Base64Text bytes (JArray.base64 bytes)
  | [], _ => ⟨[], by simp, ⟨0, by omega, rfl, rfl⟩, [], rfl, 0, by omega, rfl, rfl⟩
  | [a], h => by
    have ha : a < 256 := h a (by simp)
    have g1 : a / 4 < 64 := by omega
    have g2 : a * 16 % 64 < 64 := by omega
    refine ⟨[a / 4, a * 16 % 64], by simp; omega, ⟨4, by omega, rfl, ?_⟩,
      [JArray.base64Char (a / 4), JArray.base64Char (a * 16 % 64)], ?_, 2, by omega, rfl, by simp [JArray.base64]⟩
    · simp [positional]; omega
    · simp [alphabet_at g1, alphabet_at g2]
  | [a, b], h => by
    have ha : a < 256 := h a (by simp)
    have hb : b < 256 := h b (by simp)
    have g1 : a / 4 < 64 := by omega
    have g2 : a * 16 % 64 + b / 16 < 64 := by omega
    have g3 : b * 4 % 64 < 64 := by omega
    refine ⟨[a / 4, a * 16 % 64 + b / 16, b * 4 % 64], by simp; omega, ⟨2, by omega, rfl, ?_⟩,
      [JArray.base64Char (a / 4), JArray.base64Char (a * 16 % 64 + b / 16), JArray.base64Char (b * 4 % 64)],
      ?_, 1, by omega, rfl, by simp [JArray.base64]⟩
    · simp [positional]; omega
    · simp [alphabet_at g1, alphabet_at g2, alphabet_at g3]
  | a :: b :: c :: rest, h => by
    obtain ⟨gs, hg, ⟨ex, hex, hlen, hval⟩, ls, hls, fill, hfill, hs, hmod⟩ :=
      base64_text rest fun x hx => h x (by simp [hx])
    have ha : a < 256 := h a (by simp)
    have hb : b < 256 := h b (by simp)
    have hc : c < 256 := h c (by simp)
    have hv : a * 65536 + b * 256 + c < 16777216 := by omega
    generalize hV : a * 65536 + b * 256 + c = V at hv
    have g1 : V / 262144 % 64 < 64 := by omega
    have g2 : V / 4096 % 64 < 64 := by omega
    have g3 : V / 64 % 64 < 64 := by omega
    have g4 : V % 64 < 64 := by omega
    refine ⟨[V / 262144 % 64, V / 4096 % 64, V / 64 % 64, V % 64] ++ gs, ?_, ⟨ex, hex, ?_, ?_⟩,
      [JArray.base64Char (V / 262144 % 64), JArray.base64Char (V / 4096 % 64),
        JArray.base64Char (V / 64 % 64), JArray.base64Char (V % 64)] ++ ls, ?_, fill, hfill, ?_, ?_⟩
    · intro g hgm
      simp only [List.cons_append, List.nil_append, List.mem_cons] at hgm
      rcases hgm with rfl | rfl | rfl | rfl | hgm
      · exact g1
      · exact g2
      · exact g3
      · exact g4
      · exact hg g hgm
    · simp only [List.length_append, List.length_cons, List.length_nil]; omega
    · rw [positional_append, hval, show a :: b :: c :: rest = [a, b, c] ++ rest from rfl, positional_append]
      have e1 := positional_four V hv
      have e2 : positional 256 [a, b, c] = V := (positional_three a b c).trans hV
      have e3 : 64 ^ gs.length = 256 ^ rest.length * 2 ^ ex := by
        have p1 : 2 ^ (6 * gs.length) = 64 ^ gs.length := pow_mul 2 6 _
        have p2 : 2 ^ (8 * rest.length) = 256 ^ rest.length := pow_mul 2 8 _
        rw [← p1, ← p2, ← pow_add, hlen]
      rw [e1, e2, e3]
      generalize 256 ^ rest.length = x
      generalize 2 ^ ex = y
      ring
    · rw [List.map_append, List.map_append, hls]
      simp [alphabet_at g1, alphabet_at g2, alphabet_at g3, alphabet_at g4]
    · simp only [JArray.base64, hV, hs]; simp
    · simp only [JArray.base64, List.length_cons]; omega

theorem takeWhile_fill {s : JStr} (c : JChar) (h : c ∉ s) (n : Nat) :
    (s ++ List.replicate n c).takeWhile (· ≠ c) = s := by
  rw [List.takeWhile_append_of_pos (by intro x hx; simpa using ne_of_mem_of_not_mem hx h)]
  cases n <;> simp [List.replicate_succ]

theorem map_some_mem {gs : List Nat} {ls : JStr} (h : gs.map (fun g => base64Alphabet[g]?) = ls.map some) :
    ∀ c ∈ ls, c ∈ base64Alphabet := by
  intro c hc
  have : some c ∈ gs.map fun g => base64Alphabet[g]? := by rw [h]; exact List.mem_map_of_mem hc
  obtain ⟨g, -, hg⟩ := List.mem_map.1 this
  exact List.mem_of_getElem? hg

/-- No two byte sequences have the same Base64 text. -/
theorem Spec.Base64Text.inj {a b : List Nat} {s : JStr} (ha : ∀ x ∈ a, x < 256) (hb : ∀ x ∈ b, x < 256)
    (h : Base64Text a s) (h' : Base64Text b s) : a = b := by
  obtain ⟨gs, hg, ⟨ex, hex, hlen, hval⟩, ls, hls, fill, hfill, hs, hmod⟩ := h
  obtain ⟨gs', hg', ⟨ex', hex', hlen', hval'⟩, ls', hls', fill', hfill', hs', -⟩ := h'
  have hno : ∀ c ∈ base64Alphabet, c ≠ 61 := by decide
  have e1 : ls = ls' := by
    rw [← takeWhile_fill 61 (fun hm => hno _ (map_some_mem hls _ hm) rfl) fill,
      ← takeWhile_fill 61 (fun hm => hno _ (map_some_mem hls' _ hm) rfl) fill', ← hs, ← hs']
  subst e1
  have hnd : base64Alphabet.Nodup := by decide
  have e2 : gs = gs' := by
    have hmm := hls.trans hls'.symm
    clear hls hls' hval hval' hlen hlen'
    induction gs generalizing gs' with
    | nil => exact (List.map_eq_nil_iff.1 hmm.symm).symm
    | cons g gs ih =>
      cases gs' with
      | nil => simp at hmm
      | cons g' gs' =>
        simp only [List.map_cons, List.cons.injEq] at hmm
        have hgl : g < base64Alphabet.length := hg g List.mem_cons_self
        have : g = g' := (List.getElem?_inj hgl hnd).1 hmm.1
        rw [this, ih (fun x hx => hg x (List.mem_cons_of_mem _ hx)) gs'
          (fun x hx => hg' x (List.mem_cons_of_mem _ hx)) hmm.2]
  subst e2
  have e3 : a.length = b.length ∧ ex = ex' := by omega
  obtain ⟨e3, rfl⟩ := e3
  exact positional_inj e3 ha hb (Nat.eq_of_mul_eq_mul_right (by positivity) (hval.symm.trans hval'))

/-! ### Lists -/

theorem listingLoop_eq (sb a : JStr) (rest : List JStr) :
    JArray.listingLoop sb (a :: rest) = sb ++ joinWith (js! ", ") (a :: rest) ++ js! "]" := by
  induction rest generalizing sb a with
  | nil => simp [JArray.listingLoop, joinWith]
  | cons b rest ih => rw [JArray.listingLoop, ih]; simp [joinWith]; exact fun h => absurd h (by simp)

theorem listing_eq (ts : List JStr) : JArray.listing ts = bracketed ts := by
  cases ts with
  | nil => rfl
  | cons a rest => rw [JArray.listing, if_neg (by simp), listingLoop_eq]; rfl

theorem texts_eq {α : Type} {p : α → JStr → Prop} {f : α → JStr} (hf : ∀ v s, p v s → s = f v)
    {vs : List α} {ts : List JStr} (h : Texts p vs ts) : ts = vs.map f := by
  unfold Texts at h
  induction h with
  | nil => rfl
  | cons h _ ih => rw [List.map_cons, hf _ _ h, ih]

theorem texts_map {α : Type} {p : α → JStr → Prop} {f : α → JStr} (hf : ∀ v, p v (f v)) (vs : List α) :
    Texts p vs (vs.map f) := by
  unfold Texts
  induction vs with
  | nil => exact .nil
  | cons v vs ih => exact .cons (hf v) ih

theorem elementText_eq {o : Shown} {s : JStr} (h : ElementText o s) : s = Spec.shown o := by
  cases h with
  | throws cls exc hx => rw [hx.eq (by omega) (by omega)]; rfl
  | _ => rfl

theorem elementText_shown (o : Shown) : ElementText o (Spec.shown o) := by
  cases o with
  | null => exact .null
  | text s => exact .text s
  | nullText => exact .nullText
  | throws c h x => exact .throws c x (shortest_toRadix (by omega) (by omega) _)

/-- The model computes the text. -/
theorem array_text (jdk : JdkEnv) (a : JArray) : ∃ s, ArrayText jdk a s ∧ a.toStr jdk = .ok s := by
  have dec : ∀ {n : Nat} (vs : List (BitVec n)),
      Texts (fun v => DecimalText v.toInt) vs (vs.map fun v => intToString v.toInt) :=
    fun vs => texts_map (fun v => decimalText_intToString _) vs
  cases a with
  | bytes bs =>
    exact ⟨_, .bytes (base64_text _ (by
      intro b hb
      obtain ⟨v, -, rfl⟩ := List.mem_map.1 hb
      exact v.isLt)), rfl⟩
  | chars cs => exact ⟨_, .chars cs, rfl⟩
  | bools vs => refine ⟨_, .bools vs, ?_⟩; cases vs <;> simp [JArray.toStr, JArray.length, listing_eq]; rfl
  | shorts vs => refine ⟨_, .shorts (dec vs), ?_⟩; cases vs <;> simp [JArray.toStr, JArray.length, listing_eq]; rfl
  | ints vs => refine ⟨_, .ints (dec vs), ?_⟩; cases vs <;> simp [JArray.toStr, JArray.length, listing_eq]; rfl
  | longs vs => refine ⟨_, .longs (dec vs), ?_⟩; cases vs <;> simp [JArray.toStr, JArray.length, listing_eq]; rfl
  | floats vs => refine ⟨_, .floats vs, ?_⟩; cases vs <;> simp [JArray.toStr, JArray.length, listing_eq]; rfl
  | doubles vs => refine ⟨_, .doubles vs, ?_⟩; cases vs <;> simp [JArray.toStr, JArray.length, listing_eq]; rfl
  | refs es =>
    refine ⟨_, .refs (texts_map elementText_shown es), ?_⟩
    cases es with
    | nil => rfl
    | cons e es => rw [JArray.toStr, if_neg (by simp [JArray.length]), C44_join_array]; rfl

/-- The text of an array is unique. -/
theorem Spec.Base64Text.unique {a : List Nat} {s s' : JStr} (h : Base64Text a s) (h' : Base64Text a s') :
    s = s' := by
  obtain ⟨gs, hg, ⟨ex, hex, hlen, hval⟩, ls, hls, fill, hfill, hs, hmod⟩ := h
  obtain ⟨gs', hg', ⟨ex', hex', hlen', hval'⟩, ls', hls', fill', hfill', hs', hmod'⟩ := h'
  have e1 : gs.length = gs'.length ∧ ex = ex' := by omega
  obtain ⟨e1, rfl⟩ := e1
  have e2 := positional_inj e1 hg hg' (hval.trans hval'.symm)
  subst e2
  have e3 : ls = ls' := List.map_injective_iff.2 (Option.some_injective _) (hls.symm.trans hls')
  subst e3
  have : fill = fill' := by
    rw [hs, List.length_append, List.length_replicate] at hmod
    rw [hs', List.length_append, List.length_replicate] at hmod'
    omega
  rw [hs, hs', this]

theorem Spec.ArrayText.unique {jdk : JdkEnv} {a : JArray} {s s' : JStr} (h : ArrayText jdk a s)
    (h' : ArrayText jdk a s') : s = s' := by
  have dec : ∀ {n : Nat} {vs : List (BitVec n)} {ts : List JStr},
      Texts (fun v => DecimalText v.toInt) vs ts → ts = vs.map fun v => intToString v.toInt :=
    fun h => texts_eq (fun v s hs => decimalText_eq hs) h
  cases h with
  | bytes h1 => cases h' with | bytes h2 => exact h1.unique h2
  | chars => cases h'; rfl
  | bools => cases h'; rfl
  | shorts h1 => cases h' with | shorts h2 => rw [dec h1, dec h2]
  | ints h1 => cases h' with | ints h2 => rw [dec h1, dec h2]
  | longs h1 => cases h' with | longs h2 => rw [dec h1, dec h2]
  | floats => cases h'; rfl
  | doubles => cases h'; rfl
  | refs h1 =>
    cases h' with
    | refs h2 =>
      rw [texts_eq (f := Spec.shown) (fun _ _ h => elementText_eq h) h1,
        texts_eq (f := Spec.shown) (fun _ _ h => elementText_eq h) h2]

/-! ### The property -/

/-- **C63.** `%s` prints an array as listed in `ArrayText`, cut to the precision and padded to the width; an
element whose `toString()` throws is noted, and the call succeeds. -/
theorem C63_array (dates : DateSyntax) (env : DateEnv) (jdk : JdkEnv) (d : Directive) (h : d.Ok dates)
    (hp : d.Plain) (hc : d.conv = ch! 's') (a : JArray) (s : JStr) (hs : ArrayText jdk a s) (id : Identity)
    (rest : List Traits) :
    printf dates env d.text ((Entry.ref (Obj.array jdk a id)).toTraits jdk :: rest) =
      .ok (d.padded (cut d.prec.precision s)) := by
  obtain ⟨s', h1, h2⟩ := array_text jdk a
  rw [hs.unique h1]
  exact C54_s dates env jdk d h hp hc _ (.ok s') (h2 ▸ .object _ _ _) rest

/-- **C63.** Every array has such a text, and only one. -/
theorem C63_defined (jdk : JdkEnv) (a : JArray) : ∃! s, ArrayText jdk a s := by
  obtain ⟨s, h, -⟩ := array_text jdk a
  exact ⟨s, h, fun s' h' => h'.unique h⟩

theorem split_comma {a b r s : JStr} (ha : 44 ∉ a) (hb : 44 ∉ b) (hr : r = [] ∨ r.head? = some 44)
    (hs : s = [] ∨ s.head? = some 44) (h : a ++ r = b ++ s) : a = b ∧ r = s := by
  have key : ∀ {a r : JStr}, 44 ∉ a → (r = [] ∨ r.head? = some 44) →
      (a ++ r).takeWhile (· ≠ 44) = a := by
    intro a r ha hr
    rw [List.takeWhile_append_of_pos (by intro x hx; simpa using ne_of_mem_of_not_mem hx ha)]
    rcases hr with rfl | hr
    · simp
    · cases r with
      | nil => simp
      | cons c r => simp at hr; simp [hr]
  have : a = b := by rw [← key ha hr, h, key hb hs]
  exact ⟨this, by rw [this] at h; exact List.append_cancel_left h⟩

theorem joinWith_inj : ∀ {as bs : List JStr}, (∀ a ∈ as, a ≠ [] ∧ 44 ∉ a) → (∀ b ∈ bs, b ≠ [] ∧ 44 ∉ b) →
    joinWith (js! ", ") as = joinWith (js! ", ") bs → as = bs := by
  have shape : ∀ (a : JStr) (as : List JStr), ∃ r, joinWith (js! ", ") (a :: as) = a ++ r ∧
      (r = [] ∨ r.head? = some 44) ∧ (r = [] → as = []) ∧
      (as ≠ [] → r = js! ", " ++ joinWith (js! ", ") as) := by
    intro a as
    cases as with
    | nil => exact ⟨[], by simp [joinWith], .inl rfl, fun _ => rfl, fun h => absurd rfl h⟩
    | cons b as => exact ⟨js! ", " ++ joinWith (js! ", ") (b :: as), by simp [joinWith], .inr rfl, by simp, fun _ => rfl⟩
  intro as
  induction as with
  | nil =>
    intro bs _ hb h
    cases bs with
    | nil => rfl
    | cons b bs =>
      obtain ⟨r, hr, -⟩ := shape b bs
      rw [hr] at h
      exact absurd (List.append_eq_nil_iff.1 h.symm).1 (hb b List.mem_cons_self).1
  | cons a as ih =>
    intro bs ha hb h
    cases bs with
    | nil =>
      obtain ⟨r, hr, -⟩ := shape a as
      rw [hr] at h
      exact absurd (List.append_eq_nil_iff.1 h).1 (ha a List.mem_cons_self).1
    | cons b bs =>
      obtain ⟨r, hr, hr1, hr2, hr3⟩ := shape a as
      obtain ⟨s, hs, hs1, hs2, hs3⟩ := shape b bs
      rw [hr, hs] at h
      obtain ⟨e1, e2⟩ := split_comma (ha a List.mem_cons_self).2 (hb b List.mem_cons_self).2 hr1 hs1 h
      subst e1
      subst e2
      by_cases has : as = []
      · subst has
        by_cases hbs : bs = []
        · rw [hbs]
        · exfalso
          obtain ⟨r', hr', -, -⟩ := shape a []
          have : r = [] := by
            have := hr.symm
            simp [joinWith] at this
            exact this
          exact hbs (hs2 this)
      · by_cases hbs : bs = []
        · subst hbs
          have : r = [] := by
            have := hs.symm
            simp [joinWith] at this
            exact this
          exact absurd (hr2 this) has
        · have := (hr3 has).symm.trans (hs3 hbs)
          rw [ih (fun x hx => ha x (List.mem_cons_of_mem _ hx)) (fun x hx => hb x (List.mem_cons_of_mem _ hx))
            (List.append_cancel_left this)]

theorem bracketed_inj {as bs : List JStr} (ha : ∀ a ∈ as, a ≠ [] ∧ 44 ∉ a) (hb : ∀ b ∈ bs, b ≠ [] ∧ 44 ∉ b)
    (h : bracketed as = bracketed bs) : as = bs :=
  joinWith_inj ha hb (List.append_cancel_left (List.append_cancel_right h))

theorem decimalText_chars {v : Int} {s : JStr} (h : DecimalText v s) : s ≠ [] ∧ 44 ∉ s := by
  obtain ⟨ds, h1, rfl⟩ := h
  refine ⟨?_, ?_⟩
  · have := h1.1.1
    simp [this]
  · intro hm
    have : ∀ c ∈ ds, IsDigitIn 10 c := h1.1.2
    rcases List.mem_append.1 hm with hm | hm
    · split_ifs at hm <;> simp at hm
    · have := this _ hm
      exact absurd this (by decide)

theorem decimalText_inj {v w : Int} {s : JStr} (h : DecimalText v s) (h' : DecimalText w s) : v = w := by
  obtain ⟨ds, h1, rfl⟩ := h
  obtain ⟨es, h2, h3⟩ := h'
  have d1 : ∀ c ∈ ds, IsDigitIn 10 c := h1.1.2
  have d2 : ∀ c ∈ es, IsDigitIn 10 c := h2.1.2
  have no : ¬ IsDigitIn 10 45 := by decide
  by_cases hv : v < 0
  · by_cases hw : w < 0
    · rw [if_pos hv, if_pos hw] at h3
      have : ds = es := by simpa using h3
      subst this
      have := h1.2.2.symm.trans h2.2.2
      omega
    · rw [if_pos hv, if_neg hw] at h3
      exact absurd (d2 45 (by rw [← List.nil_append es, ← h3]; simp)) no
  · by_cases hw : w < 0
    · rw [if_neg hv, if_pos hw] at h3
      exact absurd (d1 45 (by rw [← List.nil_append ds, h3]; simp)) no
    · rw [if_neg hv, if_neg hw] at h3
      have : ds = es := by simpa using h3
      subst this
      have := h1.2.2.symm.trans h2.2.2
      omega

theorem texts_inj {n : Nat} {vs ws : List (BitVec n)} {ts : List JStr}
    (h : Texts (fun v => DecimalText v.toInt) vs ts) (h' : Texts (fun v => DecimalText v.toInt) ws ts) :
    vs = ws := by
  unfold Texts at h h'
  induction h generalizing ws with
  | nil => cases h'; rfl
  | cons h1 _ ih =>
    cases h' with
    | cons h2 h3 =>
      rw [BitVec.toInt_inj.1 (decimalText_inj h1 h2), ih h3]

/-- **C63.** The text of an array of bytes, characters, truth values or integers tells the elements: two
arrays of the same type with the same text are equal. -/
theorem C63_injective (jdk : JdkEnv) (a b : JArray) (h : SameType a b) (s : JStr) (ha : ArrayText jdk a s)
    (hb : ArrayText jdk b s) : a = b := by
  have dec : ∀ {n : Nat} {vs : List (BitVec n)} {ts : List JStr},
      Texts (fun v => DecimalText v.toInt) vs ts → ∀ t ∈ ts, t ≠ [] ∧ 44 ∉ t := by
    intro n vs ts ht t hm
    obtain ⟨i, hi, rfl⟩ := List.getElem_of_mem hm
    have := ht.length_eq
    exact decimalText_chars (List.Forall₂.get ht (by omega) hi)
  cases h with
  | bytes a b =>
    cases ha with
    | bytes h1 =>
      cases hb with
      | bytes h2 =>
        have lt : ∀ (l : List (BitVec 8)), ∀ x ∈ l.map BitVec.toNat, x < 256 := by
          intro l x hx
          obtain ⟨v, -, rfl⟩ := List.mem_map.1 hx
          exact v.isLt
        rw [List.map_injective_iff.2 (fun _ _ e => BitVec.eq_of_toNat_eq e) (h1.inj (lt a) (lt b) h2)]
  | chars a b => cases ha; cases hb; rfl
  | bools a b =>
    have key : ∀ l : List Bool, ∀ t ∈ l.map (fun b => if b then js! "true" else js! "false"),
        t ≠ [] ∧ 44 ∉ t := by
      intro l t ht
      obtain ⟨b, -, rfl⟩ := List.mem_map.1 ht
      cases b <;> decide
    generalize ht : s = t at hb
    cases ha
    cases hb
    have inj : Function.Injective fun b : Bool => if b then js! "true" else js! "false" := by
      intro x y; cases x <;> cases y <;> simp
    rw [List.map_injective_iff.2 inj (bracketed_inj (key a) (key b) ht)]
  | shorts a b =>
    generalize ht : s = t at hb
    cases ha with
    | shorts h1 => cases hb with
      | shorts h2 => rw [texts_inj h1 ((bracketed_inj (dec h1) (dec h2) ht) ▸ h2)]
  | ints a b =>
    generalize ht : s = t at hb
    cases ha with
    | ints h1 => cases hb with
      | ints h2 => rw [texts_inj h1 ((bracketed_inj (dec h1) (dec h2) ht) ▸ h2)]
  | longs a b =>
    generalize ht : s = t at hb
    cases ha with
    | longs h1 => cases hb with
      | longs h2 => rw [texts_inj h1 ((bracketed_inj (dec h1) (dec h2) ht) ▸ h2)]

/-- **C63 (arrays of references).** Their text does not tell the elements: a text may contain the
separator. -/
theorem C63_ambiguous (jdk : JdkEnv) : ∃ a b : JArray, a ≠ b ∧ ∃ s, ArrayText jdk a s ∧ ArrayText jdk b s :=
  ⟨.refs [.text (js! "a"), .text (js! "b")], .refs [.text (js! "a, b")], by decide, js! "[a, b]",
    .refs (.cons (.text _) (.cons (.text _) .nil)), .refs (.cons (.text _) .nil)⟩

/-- An empty `byte[]` or `char[]` prints as nothing, any other empty array as a pair of brackets. -/
example (jdk : JdkEnv) : ArrayText jdk (.bytes []) [] ∧ ArrayText jdk (.chars []) [] ∧
    ArrayText jdk (.ints []) (js! "[]") ∧ ArrayText jdk (.refs []) (js! "[]") :=
  ⟨.bytes (base64_text [] (by simp)), .chars [], .ints .nil, .refs .nil⟩

example (jdk : JdkEnv) : ArrayText jdk (.bytes [77, 97, 110, 255]) (js! "TWFu/w==") :=
  .bytes (base64_text [77, 97, 110, 255] (by decide))

example (jdk : JdkEnv) : ArrayText jdk (.ints [7, -12]) (js! "[7, -12]") := by
  have h : DecimalText (-12#32).toInt (js! "-12") := by
    rw [show (-12#32).toInt = -12 by decide]; exact decimalText_intToString (-12)
  exact .ints (vs := [7, -12]) (ts := [js! "7", js! "-12"]) (.cons (decimalText_intToString 7) (.cons h .nil))

/-- A nested array shows as its class and hash code, and a throwing element as a note. -/
example (jdk : JdkEnv) : ArrayText jdk
    (.refs [.text (js! "[I@1b"), .null, .throws (js! "p.Q") 255 (js! "p.E")])
    (js! "[[I@1b, null, <p.Q@ff threw p.E>]") :=
  .refs (.cons (.text _) (.cons .null (.cons (.throws _ _ (hash := 255) (hex := js! "ff")
    (shortest_toRadix (b := 16) (by omega) (by omega) 255)) .nil)))

example : printf sampleDates sampleDateEnv (js! "[%-8.5s|%s]")
    [(Entry.ref (Obj.array sampleJdk (.ints [7, -12]) someId)).toTraits sampleJdk,
      (Entry.ref (Obj.array sampleJdk (.bytes [77, 97]) someId)).toTraits sampleJdk] =
    .ok (js! "[[7, -   |TWE=]") := by decide +kernel
example : (bare (ch! 's')).Ok sampleDates ∧ (bare (ch! 's')).Plain :=
  ⟨bare_ok (by decide) (by decide), by simp [bare], by simp [bare]⟩
/-- An array is no number. -/
example : printf sampleDates sampleDateEnv (js! "%d")
    [(Entry.ref (Obj.array sampleJdk (.ints [7]) someId)).toTraits sampleJdk] =
    .error (.printf (.wrongType .notANumber)) := rfl

end FastPrintf
