/-
Property theorems about message and debug texts: C42 (the `multiplyHigh` fallback), C43, the string half
of C44, C45 and C47.
-/
import Verif.Props.Compile
import Verif.Model.Messages
import Verif.Proofs.MultiplyHigh
import Verif.Spec.Text

namespace FastPrintf

/-! ### C42 -/

/-- **C42.** The pure-Java fallback is the floor of the exact product divided by 2^64, for every pair of
signed 64-bit numbers; and it is the JDK method, so the choice made at start-up is invisible. -/
theorem C42_multiplyHigh (x y : BitVec 64) :
    (MultiplyHigh.slowMultiplyHigh x y).toInt = x.toInt * y.toInt / 2 ^ 64 ∧
    MultiplyHigh.slowMultiplyHigh x y = MultiplyHigh.jdkMultiplyHigh x y := by
  refine ⟨slow_toInt x y, ?_⟩
  rw [MultiplyHigh.jdkMultiplyHigh, ← slow_toInt x y, BitVec.ofInt_toInt]

example : (MultiplyHigh.slowMultiplyHigh (BitVec.ofInt 64 (-1)) 1#64).toInt = -1 := by decide
example : (MultiplyHigh.slowMultiplyHigh (BitVec.intMin 64) (BitVec.intMin 64)).toInt = 2 ^ 62 := by
  decide

/-! ### C43 -/

namespace Spec

/-- The template cut at every `%s`, scanning from the left. -/
def pieces : JStr → List JStr
  | 37 :: 115 :: rest => [] :: pieces rest
  | c :: rest =>
    match pieces rest with
    | p :: ps => (c :: p) :: ps
    | [] => [[c]]
  | [] => [[]]

/-- The text of an argument in a message. -/
def shown : Shown → JStr
  | .null => js! "null"
  | .text s => s
  | .nullText => js! "null"
  | .throws cls hash exc =>
    js! "<" ++ cls ++ js! "@" ++ toRadix 16 hash.toNat ++ js! " threw " ++ exc ++ js! ">"

/-- Surplus arguments in brackets. -/
def brackets : List JStr → JStr
  | [] => []
  | as => js! " [" ++ joinWith (js! ", ") as ++ js! "]"

/-- The pieces with the arguments between them; placeholders without argument stay. -/
def weave : List JStr → List JStr → JStr
  | [], as => brackets as
  | [p], as => p ++ brackets as
  | p :: q :: ps, [] => p ++ js! "%s" ++ weave (q :: ps) []
  | p :: q :: ps, a :: as => p ++ a ++ weave (q :: ps) as

end Spec

namespace Messages

theorem pieces_ne_nil (t : JStr) : Spec.pieces t ≠ [] := by
  fun_cases Spec.pieces t <;> simp_all

theorem pieces_head (t : JStr) (d : Nat) (p : JStr) (ps : List JStr)
    (h : Spec.pieces t = (d :: p) :: ps) : ∃ r, t = d :: r := by
  fun_cases Spec.pieces t with
  | case1 => simp [Spec.pieces] at h
  | case2 c rest hn q qs hq =>
    rw [Spec.pieces, hq] at h
    · simp only [List.cons.injEq] at h; exact ⟨rest, by rw [h.1.1]⟩
    · exact hn
  | case3 c rest hn hq => exact absurd hq (pieces_ne_nil _)
  | case4 => simp [Spec.pieces] at h

theorem go_spec (t : JStr) (i : Nat) :
    (indexOfPlaceholder.go t i = none ∧ Spec.pieces t = [t]) ∨
    ∃ k, indexOfPlaceholder.go t i = some (i + k) ∧ k + 2 ≤ t.length ∧
      t = t.take k ++ js! "%s" ++ t.drop (k + 2) ∧
      Spec.pieces t = t.take k :: Spec.pieces (t.drop (k + 2)) := by
  fun_induction indexOfPlaceholder.go t i with
  | case1 rest i =>
    exact .inr ⟨0, by simp, by simp, by simp, by simp [Spec.pieces]⟩
  | case2 c rest i h ih =>
    have e : Spec.pieces (c :: rest) = match Spec.pieces rest with
        | p :: ps => (c :: p) :: ps
        | [] => [[c]] := by
      rw [Spec.pieces]
      intro r hc hr
      exact h r hc hr
    rcases ih with ⟨h1, h2⟩ | ⟨k, h1, hk, ht, h2⟩
    · exact .inl ⟨h1, by rw [e, h2]⟩
    · refine .inr ⟨k + 1, by rw [h1]; congr 1; omega, by simp only [List.length_cons]; omega, ?_, ?_⟩
      · conv => lhs; rw [ht]
        rfl
      · rw [e, h2]; rfl
  | case3 i => exact .inl ⟨rfl, rfl⟩

/-- Putting `%s` back between the pieces gives the template. -/
theorem weave_nil (u : JStr) : Spec.weave (Spec.pieces u) [] = u := by
  have hw : ∀ n, ∀ u : JStr, u.length ≤ n → Spec.weave (Spec.pieces u) [] = u := by
    intro n
    induction n with
    | zero => intro u hu; simp at hu; subst hu; rfl
    | succ n ih =>
      intro u hu
      rcases go_spec u 0 with ⟨_, h⟩ | ⟨k, _, hk, ht, h⟩
      · rw [h]; simp [Spec.weave, Spec.brackets]
      · rw [h]
        have hp := pieces_ne_nil (u.drop (k + 2))
        have := ih (u.drop (k + 2)) (by simp; omega)
        rcases hps : Spec.pieces (u.drop (k + 2)) with _ | ⟨q, ps⟩
        · exact absurd hps hp
        · rw [hps] at this
          simp only [Spec.weave]
          rw [this]
          exact ht.symm
  exact hw _ _ (le_refl _)

theorem surplus_eq (as : List JStr) (sb : JStr) : surplus as sb = sb ++ Spec.brackets as := by
  cases as with
  | nil => simp [surplus, Spec.brackets]
  | cons a rest =>
    have h : ∀ (rest : List JStr) (a sb : JStr),
        rest.foldl (fun sb x => sb ++ js! ", " ++ x) (sb ++ a)
          = sb ++ Spec.joinWith (js! ", ") (a :: rest) := by
      intro rest
      induction rest with
      | nil => intro a sb; rfl
      | cons b bs ih =>
        intro a sb
        simp only [List.foldl_cons, Spec.joinWith]
        rw [List.append_assoc (sb ++ a), List.append_assoc sb, ← List.append_assoc a,
          ← List.append_assoc sb, ih]
        simp
    simp only [surplus, Spec.brackets]
    rw [h]
    simp

theorem substitute_eq (t : JStr) (as : List JStr) (start : Nat) (sb : JStr) :
    surplus (substitute t as start sb).2.1
      ((substitute t as start sb).1 ++ slice t (substitute t as start sb).2.2
        (t.length - (substitute t as start sb).2.2))
      = sb ++ Spec.weave (Spec.pieces (t.drop start)) as := by
  induction as generalizing start sb with
  | nil =>
    simp only [substitute, surplus]
    rw [weave_nil]
    simp only [slice]
    rw [List.take_of_length_le (by simp)]
  | cons a rest ih =>
    simp only [substitute]
    rcases go_spec (t.drop start) start with ⟨h1, h2⟩ | ⟨k, h1, hk, -, h2⟩
    · have : indexOfPlaceholder t start = none := h1
      rw [this]
      simp only [surplus_eq]
      rw [h2]
      simp only [Spec.weave, slice]
      rw [List.take_of_length_le (by simp)]
      simp
    · have : indexOfPlaceholder t start = some (start + k) := h1
      rw [this]
      simp only []
      rw [ih, h2]
      have hp := pieces_ne_nil ((t.drop start).drop (k + 2))
      rcases hps : Spec.pieces ((t.drop start).drop (k + 2)) with _ | ⟨q, ps⟩
      · exact absurd hps hp
      · rw [List.drop_drop, show start + (k + 2) = start + k + 2 by omega] at hps
        rw [hps]
        simp [Spec.weave, slice]

theorem join_fold (rest : List Shown) (a sb sep : JStr) :
    rest.foldl (fun sb x => sb ++ sep ++ Spec.shown x) (sb ++ a)
      = sb ++ Spec.joinWith sep (a :: rest.map Spec.shown) := by
  induction rest generalizing a sb with
  | nil => rfl
  | cons b bs ih =>
    simp only [List.foldl_cons, List.map_cons, Spec.joinWith]
    rw [List.append_assoc (sb ++ a), List.append_assoc sb, ← List.append_assoc a,
      ← List.append_assoc sb, ih]
    simp

theorem shown_eq (a : Shown) : appended (lenientToString a) = Spec.shown a := by
  cases a <;> simp [lenientToString, appended, Spec.shown]

end Messages

open Messages

/-- **C43.** The message of a template and arguments: the template cut at every `%s`, the first
placeholders replaced by the arguments in order, the surplus placeholders left, the surplus arguments in
brackets at the end. -/
theorem C43_message (template : JStr) (args : List Shown) :
    lenientFormat (some template) (some args)
      = Spec.weave (Spec.pieces template) (args.map Spec.shown) := by
  have h := substitute_eq template (args.map fun a => appended (lenientToString a)) 0 []
  simp only [List.drop_zero, List.nil_append] at h
  simp only [lenientFormat]
  rw [h]
  congr 2
  funext a
  exact shown_eq a

/-- What the cut is: no piece contains `%s`, and the template is the pieces with `%s` between them. -/
theorem C43_pieces (template : JStr) :
    (∀ p ∈ Spec.pieces template, ¬ js! "%s" <:+: p) ∧
    Spec.joinWith (js! "%s") (Spec.pieces template) = template := by
  constructor
  · fun_induction Spec.pieces template with
    | case1 rest ih =>
      intro p hp
      rcases List.mem_cons.1 hp with rfl | hp
      · simp
      · exact ih p hp
    | case2 c rest h p ps hps ih =>
      intro x hx
      rcases List.mem_cons.1 hx with rfl | hx
      · have hp := ih p (by rw [hps]; simp)
        intro hin
        rcases List.infix_cons_iff.1 hin with hpre | hin
        · rw [List.cons_prefix_cons] at hpre
          obtain ⟨hc, hpre⟩ := hpre
          -- the piece starts with `s`, so the rest of the template does
          rcases p with _ | ⟨d, p'⟩
          · simp at hpre
          · rw [List.cons_prefix_cons] at hpre
            obtain ⟨hd, -⟩ := hpre
            have := pieces_head rest _ _ _ hps
            obtain ⟨r, rfl⟩ := this
            exact h r hc.symm (by rw [← hd])
        · exact hp hin
      · exact ih x (by rw [hps]; simp [hx])
    | case3 c rest h hps => exact absurd hps (pieces_ne_nil _)
    | case4 => intro p hp; simp at hp; subst hp; simp
  · have : ∀ ps : List JStr, ps ≠ [] → Spec.joinWith (js! "%s") ps = Spec.weave ps [] := by
      intro ps
      induction ps with
      | nil => intro h; exact absurd rfl h
      | cons p ps ih =>
        intro _
        rcases ps with _ | ⟨q, ps⟩
        · simp [Spec.joinWith, Spec.weave, Spec.brackets]
        · simp only [Spec.joinWith, Spec.weave]
          rw [ih (by simp)]
    rw [this _ (pieces_ne_nil _), weave_nil]

/-- Nothing is lost: the text of every argument occurs in the message. -/
theorem C43_keeps_arguments (template : JStr) (args : List Shown) (a : Shown) (h : a ∈ args) :
    Spec.shown a <:+: lenientFormat (some template) (some args) := by
  rw [C43_message]
  have hj : ∀ (as : List JStr) (x : JStr), x ∈ as → x <:+: Spec.joinWith (js! ", ") as := by
    intro as x hx
    induction as with
    | nil => simp at hx
    | cons b bs ih =>
      rcases bs with _ | ⟨c, cs⟩
      · simp at hx; subst hx; exact List.infix_rfl
      · simp only [Spec.joinWith]
        rcases List.mem_cons.1 hx with rfl | hx
        · exact (List.prefix_append _ _).isInfix.trans (List.prefix_append _ _).isInfix
        · exact (ih hx).trans (List.suffix_append _ _).isInfix
  have hb : ∀ (as : List JStr) (x : JStr), x ∈ as → x <:+: Spec.brackets as := by
    intro as x hx
    rcases as with _ | ⟨b, bs⟩
    · simp at hx
    · exact (hj _ x hx).trans ⟨js! " [", js! "]", rfl⟩
  have hw : ∀ (ps as : List JStr) (x : JStr), x ∈ as → x <:+: Spec.weave ps as := by
    intro ps as x hx
    fun_induction Spec.weave ps as with
    | case1 as => exact hb _ x hx
    | case2 p as => exact (hb _ x hx).trans (List.suffix_append _ _).isInfix
    | case3 => simp at hx
    | case4 p q ps b bs ih =>
      rcases List.mem_cons.1 hx with rfl | hx
      · exact (List.suffix_append p x).isInfix.trans (List.prefix_append _ _).isInfix
      · exact (ih hx).trans (List.suffix_append _ _).isInfix
  exact hw _ _ _ (List.mem_map_of_mem h)

/-- A null template and a null argument array. -/
theorem C43_null (template : JStr) (args : Option (List Shown)) :
    lenientFormat none args = js! "null" ∧
    lenientFormat (some template) none
      = lenientFormat (some template) (some [.text (js! "(Object[])null")]) :=
  ⟨rfl, rfl⟩

example : lenientFormat (some (js! "index: %s, size: %s")) (some [.text (js! "7"), .text (js! "5")])
    = js! "index: 7, size: 5" := by decide
example : lenientFormat (some (js! "a %s b %s")) (some [.null]) = js! "a null b %s" := by decide
example : lenientFormat (some (js! "%%ss")) (some [.text (js! "x"), .text (js! "y"), .text (js! "z")])
    = js! "%xs [y, z]" := by decide

/-! ### C44, the string joiner -/

/-- **C44 (string joiner, arrays).** Joining the elements of an array appends their texts with the
separator between consecutive ones; `null` and throwing elements are shown, nothing is thrown. -/
theorem C44_join_array (sb sep : JStr) (es : List Shown) :
    join sb sep (.array es) = .ok (sb ++ Spec.joinWith sep (es.map Spec.shown)) := by
  rcases es with _ | ⟨a, rest⟩
  · simp [join, joinArray, Spec.joinWith]
  · simp only [join, joinArray, shown_eq, join_fold, List.map_cons]

/-- **C44 (string joiner, iterables and iterators).** The same, unless `toString()` of the first element
throws: then the exception escapes, while a throwing later element is only shown. -/
theorem C44_join_iterator (sb sep : JStr) (es : List Shown) :
    ((∀ c h x, es.head? ≠ some (.throws c h x)) →
      join sb sep (.iterable es) = .ok (sb ++ Spec.joinWith sep (es.map Spec.shown)) ∧
      join sb sep (.iterator es) = .ok (sb ++ Spec.joinWith sep (es.map Spec.shown))) ∧
    (∀ c h x rest, es = .throws c h x :: rest →
      join sb sep (.iterable es) = .error .external ∧
      join sb sep (.iterator es) = .error .external) := by
  refine ⟨?_, ?_⟩
  · intro h
    suffices joinIterator sb sep es = .ok (sb ++ Spec.joinWith sep (es.map Spec.shown)) from ⟨this, this⟩
    rcases es with _ | ⟨a, rest⟩
    · simp [joinIterator, Spec.joinWith]
    · have ha : appendObject sb a = .ok (sb ++ Spec.shown a) := by
        cases a with
        | throws c hc x => exact absurd rfl (h c hc x)
        | _ => rfl
      simp only [joinIterator, ha, bind_ok, pure_eq_ok, shown_eq, join_fold, List.map_cons]
  · rintro c h x rest rfl
    exact ⟨rfl, rfl⟩

example : join [] (js! ", ") (.array [.null, .throws (js! "K") 255#32 (js! "E"), .text (js! "x")])
    = .ok (js! "null, <K@ff threw E>, x") := by rfl
example : join [] (js! ", ") (.iterable [.throws (js! "K") 255#32 (js! "E"), .text (js! "x")])
    = .error .external := by rfl
example : join [] (js! "-") (.iterator [.text (js! "x"), .throws (js! "K") 255#32 (js! "E")])
    = .ok (js! "x-<K@ff threw E>") := by rfl

/-- **C44 (other arguments of the joiner).** `null` joins to nothing, anything else to its text. -/
theorem C44_join_other (sb sep : JStr) (s : JStr) :
    join sb sep .null = .ok sb ∧ join sb sep (.other (.text s)) = .ok (sb ++ s) ∧
    ∀ x, joinToString sep x = join [] sep x := ⟨rfl, rfl, fun _ => rfl⟩

/-- **C44 (`%s` of an array of references).** The elements, separated by a comma and a space, in square
brackets; `null` and throwing elements are shown. -/
theorem C44_object_array (es : List Shown) :
    objectArrayToString es
      = .ok (js! "[" ++ Spec.joinWith (js! ", ") (es.map Spec.shown) ++ js! "]") := by
  rcases es with _ | ⟨a, rest⟩
  · rfl
  · rw [objectArrayToString, if_neg (by simp), C44_join_array]
    rfl

example : objectArrayToString [.text (js! "a"), .null] = .ok (js! "[a, null]") := by rfl

/-! ### C45 -/

namespace Spec

/-- A reader of quoted literals: the text up to the closing quote, escapes undone, and what follows. -/
def readLiteral : JStr → Option (JStr × JStr)
  | 34 :: rest => some ([], rest)
  | 92 :: 110 :: rest => (readLiteral rest).map fun (v, r) => (10 :: v, r)
  | 92 :: 114 :: rest => (readLiteral rest).map fun (v, r) => (13 :: v, r)
  | 92 :: 116 :: rest => (readLiteral rest).map fun (v, r) => (9 :: v, r)
  | 92 :: 98 :: rest => (readLiteral rest).map fun (v, r) => (8 :: v, r)
  | 92 :: 102 :: rest => (readLiteral rest).map fun (v, r) => (12 :: v, r)
  | 92 :: 92 :: rest => (readLiteral rest).map fun (v, r) => (92 :: v, r)
  | 92 :: 34 :: rest => (readLiteral rest).map fun (v, r) => (34 :: v, r)
  | c :: rest => (readLiteral rest).map fun (v, r) => (c :: v, r)
  | [] => none

end Spec

theorem readLiteral_debug (v r : JStr) :
    Spec.readLiteral (v.flatMap debugChar ++ 34 :: r) = some (v, r) := by
  induction v with
  | nil => rfl
  | cons c v ih =>
    simp only [List.flatMap_cons, List.append_assoc]
    generalize v.flatMap debugChar ++ 34 :: r = t at ih
    unfold debugChar
    split_ifs with h1 h2 h3 h4 h5 h6 h7
    all_goals try (subst_vars; simp [Spec.readLiteral, ih]; done)
    simp only [List.cons_append, List.nil_append]
    rw [Spec.readLiteral]
    · simp [ih]
    all_goals (intros; omega)

/-- **C45.** A reader of quoted literals gets back every literal from its debug string, whatever follows:
distinct literals have distinct debug strings, and no debug string is the beginning of another. -/
theorem C45_debug_literal_reads_back (v : JStr) :
    ∃ body, debugLiteral v = js! "\"" ++ body ++ js! "\"" ∧
      ∀ r, Spec.readLiteral (body ++ js! "\"" ++ r) = some (v, r) :=
  ⟨v.flatMap debugChar, rfl, fun r => by simpa using readLiteral_debug v r⟩

theorem C45_debug_literal_injective (v w r r' : JStr)
    (h : debugLiteral v ++ r = debugLiteral w ++ r') : v = w ∧ r = r' := by
  simp only [debugLiteral, List.append_assoc, List.cons_append, List.nil_append,
    List.cons.injEq, true_and] at h
  have h1 := readLiteral_debug v r
  rw [h, readLiteral_debug w r'] at h1
  simp only [Option.some.injEq, Prod.mk.injEq] at h1
  exact ⟨h1.1.symm, h1.2.symm⟩

/-- The control characters with a short escape never occur in a debug string. -/
theorem C45_no_control (v : JStr) (c : JChar) (hc : c ∈ debugLiteral v) :
    c ≠ 10 ∧ c ≠ 13 ∧ c ≠ 9 ∧ c ≠ 8 ∧ c ≠ 12 := by
  simp only [debugLiteral, List.mem_append, List.mem_singleton, List.mem_flatMap] at hc
  rcases hc with (rfl | ⟨d, -, hd⟩) | rfl
  · decide
  · unfold debugChar at hd
    split_ifs at hd <;> simp only [List.mem_cons, List.not_mem_nil, or_false] at hd <;> omega
  · decide

example : debugLiteral (js! "a\n\"b\\") = js! "\"a\\n\\\"b\\\\\"" := by decide

/-! ### C47 -/

/-- **C47.** The message of the exception for a rejected format shows the description, the index and the
format; when the index is inside the format it ends with a line that has a caret in exactly the column
of the character at fault. -/
theorem C47_message_points_at_error (env : DateSyntax) (format : JStr) (why : SyntaxWhy) (i : Nat)
    (h : Compiler.compile env format = .error (.syntaxErr why i)) (nl desc : JStr) :
    (i < format.length ∧ ∃ caret : JStr,
      syntaxMessage nl desc (some format) i
        = desc ++ js! " near index " ++ natToString i ++ nl ++ format ++ nl ++ caret ∧
      caret.length = i + 1 ∧ caret[i]? = some (ch! '^') ∧ ∀ j < i, caret[j]? = some (ch! ' ')) ∨
    (i = format.length ∧
      syntaxMessage nl desc (some format) i
        = desc ++ js! " near index " ++ natToString i ++ nl ++ format) := by
  have hi : i ≤ format.length := by
    rcases C04_compile_failures_are_located env format with ⟨_, h'⟩ | ⟨_, j, h', hj⟩ | ⟨h', -⟩ <;>
      rw [h] at h' <;> simp at h'
    omega
  have hn : intToString (i : Int) = natToString i := by simp [intToString]
  have h0 : (0 : Int) ≤ i := by omega
  rcases Nat.lt_or_eq_of_le hi with hlt | heq
  · refine .inl ⟨hlt, List.replicate i 32 ++ js! "^", ?_, by simp, by simp, fun j hj => ?_⟩
    · have : (i : Int) < format.length := by omega
      simp [syntaxMessage, appended, hn, h0, this]
    · rw [List.getElem?_append_left (by simpa using hj)]
      simp [hj]
  · refine .inr ⟨heq, ?_⟩
    have : ¬ (i : Int) < format.length := by omega
    simp only [syntaxMessage, appended, hn, ge_iff_le, if_pos h0, this, and_false, if_false]

example : syntaxMessage (js! "\n") (js! "Unknown") (some (js! "a%y")) 2
    = js! "Unknown near index 2\na%y\n  ^" := by decide

end FastPrintf
