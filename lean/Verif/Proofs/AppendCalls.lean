/-
The `append` calls that writing a sequence to an `Appendable` makes.
-/
import Verif.Proofs.IntForms
import Verif.Props.Resources
import Verif.Spec.AppendCalls

namespace FastPrintf

open Spec

/-- The calls a leaf makes. -/
def Atomic.calls : Atomic → List JStr
  | .empty => []
  | .repeated c n => List.replicate n [c]
  | .strView s st n true => (Atomic.strView s st n true).text.map fun c => [c]
  | .strView s st n false => [(Atomic.strView s st n false).text]
  | .charArray a st n up => (Atomic.charArray a st n up).text.map fun c => [c]
  | .lazy out _ => [out]
  | .failing _ _ _ => []

namespace Seq

/-- The calls a sequence makes. -/
def calls (s : Seq) : List JStr := s.flat.flatMap Atomic.calls

end Seq

theorem Atomic.appendToCalls_eq {a : Atomic} (h : a.WF) : a.appendToCalls = .ok a.calls := by
  cases a with
  | failing o n e => exact h.elim
  | empty => rfl
  | repeated c n => rfl
  | strView s st n up =>
    simp only [Atomic.WF] at h
    cases up with
    | true =>
      simp only [Atomic.appendToCalls, Atomic.calls, Atomic.text]
      rw [if_pos (by simp), chunkLoop_eq _ _ _ _ h]
      simp
    | false =>
      simp only [Atomic.appendToCalls, Atomic.calls, Atomic.text]
      rw [if_neg (by simp), copyRange_ok h]
      simp
  | charArray s st n up =>
    simp only [Atomic.WF] at h
    simp only [Atomic.appendToCalls, Atomic.calls, Atomic.text]
    rw [chunkLoop_eq _ _ _ _ h]
  | lazy out n =>
    simp only [Atomic.WF] at h; subst h
    simp [Atomic.appendToCalls, getCachedString, Atomic.calls]

theorem Atomic.calls_text {a : Atomic} (h : a.WF) : a.calls.flatten = a.text := by
  obtain ⟨cs, h1, h2⟩ := Atomic.appendToCalls_ok h
  rw [appendToCalls_eq h] at h1; cases h1; exact h2

namespace Seq

theorem appendToCalls_eq {s : Seq} (h : s.Sane) : s.appendToCalls = .ok s.calls := by
  have go : ∀ es : List Atomic, (∀ a ∈ es, a.WF) → leavesCalls es = .ok (es.flatMap Atomic.calls) := by
    intro es
    induction es with
    | nil => intro _; rfl
    | cons a es ih =>
      intro he
      simp [leavesCalls, Atomic.appendToCalls_eq (he a (by simp)), ih fun b hb => he b (by simp [hb])]
  cases s with
  | atom a => simp [appendToCalls, Atomic.appendToCalls_eq (show a.WF from h), calls, flat]
  | concat l r n k => simp only [appendToCalls, leaves_ok h, bind_ok]; exact go _ (flat_wf h)
  | array es n => simp only [appendToCalls, leaves_ok h, bind_ok]; exact go _ (flat_wf h)

theorem calls_text {s : Seq} (h : s.Sane) : s.calls.flatten = s.text := by
  obtain ⟨cs, h1, h2⟩ := appendToCalls_ok h
  rw [appendToCalls_eq h] at h1; cases h1; exact h2

theorem mkConcat_calls (l r : Seq) : (mkConcat l r).calls = l.calls ++ r.calls := by
  unfold calls
  cases l <;> simp [mkConcat, concat0, flat]

theorem append_calls {s t : Seq} (ht : t.isEmpty = true → t.calls = []) :
    (s.append t).calls = s.calls ++ t.calls := by
  unfold append
  split
  · simp [calls, flat, Atomic.calls]
  · split
    · rw [ht (by assumption), List.append_nil]
    · exact mkConcat_calls _ _

theorem prepend_calls {s t : Seq} (ht : t.isEmpty = true → t.calls = []) :
    (s.prepend t).calls = t.calls ++ s.calls := by
  unfold prepend
  split
  · simp [calls, flat, Atomic.calls]
  · split
    · rw [ht (by assumption), List.nil_append]
    · exact mkConcat_calls _ _

/-- Every call is of a certain kind. -/
def On (Q : JStr → Prop) (s : Seq) : Prop := ∀ c ∈ s.calls, Q c

variable {Q : JStr → Prop}

theorem on_append {s t : Seq} (hs : On Q s) (ht : On Q t) : On Q (s.append t) := by
  intro c hc
  unfold append at hc
  split at hc
  · exact ht c hc
  · split at hc
    · exact hs c hc
    · rw [mkConcat_calls, List.mem_append] at hc
      exact hc.elim (hs c) (ht c)

theorem on_prepend {s t : Seq} (hs : On Q s) (ht : On Q t) : On Q (s.prepend t) := by
  intro c hc
  unfold prepend at hc
  split at hc
  · exact ht c hc
  · split at hc
    · exact hs c hc
    · rw [mkConcat_calls, List.mem_append] at hc
      exact hc.elim (ht c) (hs c)

theorem on_atom {a : Atomic} (h : ∀ c ∈ a.calls, Q c) : On Q (.atom a) := by
  intro c hc
  simp only [calls, flat, List.flatMap_cons, List.flatMap_nil, List.append_nil] at hc
  exact h c hc

theorem on_empty : On Q Seq.empty := on_atom (by simp [Atomic.calls])

theorem on_ch (one : ∀ c, Q [c]) (c : JChar) : On Q (Seq.ch c) :=
  on_atom (by simp [Atomic.ch, Atomic.calls, one])

theorem mkRepeated_calls {c : JChar} {n : Int} {a : Atomic} (h : Atomic.mkRepeated c n = .ok a) :
    a.calls = List.replicate n.toNat [c] := by
  unfold Atomic.mkRepeated at h
  split_ifs at h with h1 h2
  · cases h; subst h2; rfl
  · cases h; rfl

theorem repeated_calls {c : JChar} {n : Int} {s : Seq} (h : Seq.repeated c n = .ok s) :
    s.calls = List.replicate n.toNat [c] ∧ s.isEmpty = false := by
  unfold Seq.repeated at h
  obtain ⟨a, ha, h⟩ := bind_eq_ok.1 h
  cases h
  refine ⟨by simpa [calls, flat] using mkRepeated_calls ha, ?_⟩
  unfold Atomic.mkRepeated at ha
  split_ifs at ha with h1 h2
  · cases ha; rfl
  · cases ha
    simp [isEmpty, length, Atomic.length]
    omega

theorem on_repeated (one : ∀ c, Q [c]) {c : JChar} {n : Int} {s : Seq} (h : Seq.repeated c n = .ok s) : On Q s := by
  intro x hx
  rw [(repeated_calls h).1] at hx
  rw [List.eq_of_mem_replicate hx]; exact one c

/-- The call made for a text, none if it is empty. -/
abbrev block (t : JStr) : List JStr := Spec.inOne t

theorem block_flatten (t : JStr) : (block t).flatten = t := by
  unfold block Spec.inOne; split_ifs with h <;> simp [h]

theorem wrapAtom_calls (t : JStr) : (Atomic.wrap t).calls = block t := by
  unfold Atomic.wrap block Spec.inOne
  split
  · rfl
  · rfl
  · next s h1 h2 =>
    rw [if_neg (by intro h; exact h1 h)]
    simp [Atomic.calls, Atomic.text]

theorem wrap_calls (t : JStr) : (Seq.wrap t).calls = block t := by
  simpa [calls, flat, Seq.wrap] using wrapAtom_calls t

theorem on_wrap {t : JStr} (h : t ≠ [] → Q t) : On Q (Seq.wrap t) := by
  intro c hc
  rw [wrap_calls, block, Spec.inOne] at hc
  split_ifs at hc with h1
  · simp at hc
  · rw [List.mem_singleton] at hc; subst hc; exact h h1

/-- Kinds of calls that single characters have, and the parts of calls. -/
structure Kind (Q : JStr → Prop) : Prop where
  one : ∀ c, Q [c]
  part : ∀ t i j, Q t → Spec.sub t i j ≠ [] → Q (Spec.sub t i j)

theorem kind_nonempty : Kind (· ≠ []) := ⟨by simp, fun _ _ _ _ h => h⟩

theorem kind_single : Kind fun c => c.length = 1 := by
  refine ⟨by simp, ?_⟩
  intro t i j ht h
  have : (Spec.sub t i j).length ≤ t.length := by
    simp only [Spec.sub, List.length_drop, List.length_take]
    omega
  have : 0 < (Spec.sub t i j).length := List.length_pos_of_ne_nil h
  omega

theorem wrapRange_calls {s : JStr} {i j : Int} {a : Atomic} (h : Atomic.wrapRange s i j = .ok a) :
    a.calls = block a.text := by
  have hw := Atomic.wrapRange_wf h
  unfold Atomic.wrapRange at h
  obtain ⟨_, h0, h⟩ := bind_eq_ok.1 h
  have hb : i ≤ j := by
    unfold checkPositionIndexes at h0
    split_ifs at h0 with hx
    omega
  split_ifs at h with h1 h2
  · cases h; rfl
  · obtain ⟨c, _, h⟩ := bind_eq_ok.1 h
    cases h; rfl
  · cases h
    unfold block Spec.inOne
    rw [if_neg]
    · rfl
    · intro he
      have hl := Atomic.length_text hw
      rw [he] at hl
      simp only [Atomic.length, List.length_nil] at hl
      omega

theorem on_leaf {a : Atomic} (h : a.calls = block a.text) (ht : a.text ≠ [] → Q a.text) : ∀ c ∈ a.calls, Q c := by
  intro c hc
  rw [h, block, Spec.inOne] at hc
  split_ifs at hc with h1
  · simp at hc
  · rw [List.mem_singleton] at hc; subst hc; exact ht h1

theorem on_singles (one : ∀ c, Q [c]) (t : JStr) : ∀ c ∈ t.map (fun c => [c]), Q c := by
  intro c hc
  obtain ⟨x, _, rfl⟩ := List.mem_map.1 hc
  exact one x

theorem leaf_sub (K : Kind Q) {a b : Atomic} (hw : a.WF) (h : ∀ c ∈ a.calls, Q c) {i j : Int}
    (hs : a.subSequence i j = .ok b) : ∀ c ∈ b.calls, Q c := by
  cases a with
  | failing o n e => exact hw.elim
  | empty =>
    simp only [Atomic.subSequence] at hs
    split_ifs at hs
    cases hs; simp [Atomic.calls]
  | repeated x n =>
    simp only [Atomic.subSequence] at hs
    obtain ⟨_, _, hs⟩ := bind_eq_ok.1 hs
    split_ifs at hs <;> cases hs
    · simp [Atomic.calls]
    · intro c hc
      rw [List.eq_of_mem_replicate hc]; exact K.one x
  | strView s st n up =>
    have hs0 := hs
    simp only [Atomic.subSequence] at hs
    obtain ⟨_, h0, hs⟩ := bind_eq_ok.1 hs
    have hb : 0 ≤ i ∧ i ≤ j ∧ j ≤ n := by
      unfold checkPositionIndexes at h0
      split_ifs at h0 with hx
      omega
    split_ifs at hs with h1 h2
    · cases hs; simp [Atomic.calls]
    · obtain ⟨x, _, hs⟩ := bind_eq_ok.1 hs
      cases hs
      simp [Atomic.ch, Atomic.calls, K.one]
    · cases hs
      cases up with
      | true => exact on_singles K.one _
      | false =>
        have hq : Q (Atomic.strView s st n false).text := h _ (by simp [Atomic.calls])
        have e : (Atomic.strView s (st + i.toNat) (j - i).toNat false).text =
            Spec.sub (Atomic.strView s st n false).text i.toNat j.toNat := by
          have hl := Atomic.length_text hw
          simp only [Atomic.length] at hl
          obtain ⟨b', b1, b2, b3⟩ := Atomic.subSequence_ok hw (i := i) (j := j) (by omega)
          rw [hs0] at b1; cases b1; exact b3
        simp only [Atomic.WF] at hw
        intro c hc
        rw [Atomic.calls, List.mem_singleton] at hc
        subst hc
        rw [e]
        refine K.part _ _ _ hq ?_
        rw [← e]
        intro he
        have := congrArg List.length he
        simp [Atomic.text] at this
        omega
  | charArray s st n up =>
    simp only [Atomic.subSequence] at hs
    obtain ⟨_, h0, hs⟩ := bind_eq_ok.1 hs
    split_ifs at hs with h1 h2
    · cases hs; simp [Atomic.calls]
    · obtain ⟨x, _, hs⟩ := bind_eq_ok.1 hs
      cases hs
      simp [Atomic.ch, Atomic.calls, K.one]
    · cases hs
      exact on_singles K.one _
  | lazy out n =>
    simp only [Atomic.subSequence] at hs
    obtain ⟨_, h0, hs⟩ := bind_eq_ok.1 hs
    simp only [Atomic.WF] at hw
    subst hw
    simp only [Atomic.getCachedString, if_true, bind_ok] at hs
    have hb : 0 ≤ i ∧ i ≤ j ∧ j ≤ out.length := by
      unfold checkPositionIndexes at h0
      split_ifs at h0 with hx
      omega
    obtain ⟨b', b1, b2, b3⟩ := Atomic.wrapRange_ok hb
    rw [hs] at b1; cases b1
    refine on_leaf (wrapRange_calls hs) ?_
    rw [b3]
    exact K.part _ _ _ (h out (by simp [Atomic.calls]))

theorem on_sub (K : Kind Q) {s r : Seq} (hw : s.Sane) (hs : On Q s) {i j : Int}
    (h : s.subSequence i j = .ok r) : On Q r := by
  have leafs : ∀ a ∈ s.flat, ∀ c ∈ a.calls, Q c := by
    intro a ha c hc
    exact hs c (List.mem_flatMap.2 ⟨a, ha, hc⟩)
  have loop : ∀ (es : List Atomic) (i j : Int) (b : List Atomic) {x : List Atomic × Int × Int},
      (∀ a ∈ es, a.WF ∧ ∀ c ∈ a.calls, Q c) → (∀ a ∈ b, ∀ c ∈ a.calls, Q c) →
      subLoop es i j b = .ok x → ∀ a ∈ x.1, ∀ c ∈ a.calls, Q c := by
    intro es
    induction es with
    | nil => intro i j b x _ hb h; cases h; exact hb
    | cons a es ih =>
      intro i j b x he hb h
      have snoc : ∀ {p : Atomic} {k l : Int}, a.subSequence k l = .ok p → ∀ y ∈ b ++ [p], ∀ c ∈ y.calls, Q c := by
        intro p k l hp y hy
        rcases List.mem_append.1 hy with hy | hy
        · exact hb y hy
        · rw [List.mem_singleton] at hy; subst hy
          exact leaf_sub K (he a (by simp)).1 (he a (by simp)).2 hp
      unfold subLoop at h
      dsimp only at h
      split_ifs at h
      · obtain ⟨p, hp, h⟩ := bind_eq_ok.1 h
        cases h
        exact snoc hp
      · obtain ⟨p, hp, h⟩ := bind_eq_ok.1 h
        exact ih _ _ _ (fun y hy => he y (by simp [hy])) (snoc hp) h
      · exact ih _ _ _ (fun y hy => he y (by simp [hy])) hb h
  have go : (do
      let length := s.length
      checkPositionIndexes i j length
      if i = j then return Seq.empty
      if i = 0 ∧ j = length then return s
      let (buffer, start, stop) ← subLoop (← s.leaves) i j []
      match buffer with
      | [] => .error .assertion
      | [a] => return atom a
      | buffer => return array buffer (stop - start) : Res Seq) = .ok r → On Q r := by
    intro h
    obtain ⟨_, _, h⟩ := bind_eq_ok.1 h
    split_ifs at h
    · cases h; exact on_empty
    · cases h; exact hs
    · obtain ⟨es, h1, h⟩ := bind_eq_ok.1 h
      obtain ⟨⟨b, x, y⟩, h2, h5⟩ := bind_eq_ok.1 h
      clear h
      obtain rfl : s.flat = es := by rw [leaves_ok hw] at h1; cases h1; rfl
      have h3 := loop _ _ _ _ (fun a ha => ⟨flat_wf hw a ha, leafs a ha⟩) (by simp) h2
      match b, h5 with
      | [a], h5 => cases h5; exact on_atom (h3 a (by simp))
      | a :: b :: t, h5 =>
        cases h5
        intro c hc
        obtain ⟨y, hy, hc⟩ := List.mem_flatMap.1 hc
        exact h3 y hy c hc
  cases s with
  | atom a =>
    obtain ⟨b, hb, h⟩ := bind_eq_ok.1 h
    cases h
    exact on_atom (leaf_sub K hw (leafs a (by simp [flat])) hb)
  | concat l r n k => exact go h
  | array es n => exact go h

theorem leaf_upper {a b : Atomic} (hw : a.WF) (h : a.upperCase = .ok b) : ∀ c ∈ b.calls, c.length = 1 := by
  have rep : ∀ (x : JChar) (n : Nat), ∀ c ∈ (Atomic.repeated x n).calls, c.length = 1 := by
    intro x n c hc; rw [List.eq_of_mem_replicate hc]; rfl
  cases a with
  | failing o n e => exact hw.elim
  | empty => cases h; simp [Atomic.calls]
  | repeated x n =>
    simp only [Atomic.upperCase] at h
    split_ifs at h <;> cases h <;> exact rep _ _
  | strView s st n up => cases h; exact on_singles (Q := fun c => c.length = 1) (by simp) _
  | charArray s st n up => cases h; exact on_singles (Q := fun c => c.length = 1) (by simp) _
  | lazy out n =>
    simp only [Atomic.WF] at hw
    subst hw
    simp only [Atomic.upperCase, Atomic.getCachedString, if_true, bind_ok, Atomic.wrap] at h
    match out, h with
    | [], h => cases h; simp [Atomic.calls]
    | [x], h =>
      simp only [Atomic.ch] at h
      split_ifs at h <;> cases h <;> exact rep _ _
    | x :: y :: t, h => cases h; exact on_singles (Q := fun c => c.length = 1) (by simp) _

theorem on_upper {s r : Seq} (hw : s.Sane) (h : s.upperCase = .ok r) : On (fun c => c.length = 1) r := by
  have mapped : ∀ (es : List Atomic) {us : List Atomic}, (∀ a ∈ es, a.WF) → es.mapM Atomic.upperCase = .ok us →
      ∀ a ∈ us, ∀ c ∈ a.calls, c.length = 1 := by
    intro es
    induction es with
    | nil => intro us _ hu; cases hu; simp
    | cons a es ih =>
      intro us he hu
      rw [List.mapM_cons] at hu
      obtain ⟨b, hb, hu⟩ := bind_eq_ok.1 hu
      obtain ⟨bs, hbs, hu⟩ := bind_eq_ok.1 hu
      cases hu
      intro y hy
      rcases List.mem_cons.1 hy with rfl | hy
      · exact leaf_upper (he a (by simp)) hb
      · exact ih (fun z hz => he z (by simp [hz])) hbs y hy
  have hl := leaves_ok hw
  cases s with
  | atom a =>
    obtain ⟨b, hb, h⟩ := bind_eq_ok.1 h
    cases h; exact on_atom (leaf_upper hw hb)
  | concat l r' n m =>
    simp only [Seq.upperCase, hl, bind_ok] at h
    obtain ⟨us, hu, h⟩ := bind_eq_ok.1 h
    cases h
    intro c hc
    obtain ⟨y, hy, hc⟩ := List.mem_flatMap.1 hc
    exact mapped _ (flat_wf hw) hu y hy c hc
  | array es n =>
    simp only [Seq.upperCase, hl, bind_ok] at h
    obtain ⟨us, hu, h⟩ := bind_eq_ok.1 h
    cases h
    intro c hc
    obtain ⟨y, hy, hc⟩ := List.mem_flatMap.1 hc
    exact mapped _ (flat_wf hw) hu y hy c hc

theorem On.mono {Q' : JStr → Prop} {s : Seq} (h : On Q s) (hq : ∀ c, Q c → Q' c) : On Q' s :=
  fun c hc => hq c (h c hc)

theorem on_upper' (K : Kind Q) {s r : Seq} (hw : s.Sane) (h : s.upperCase = .ok r) : On Q r := by
  refine (on_upper hw h).mono ?_
  intro c hc
  obtain ⟨x, rfl⟩ := List.length_eq_one_iff.1 hc
  exact K.one x

/-- If every call brings one character, the calls are the characters. -/
theorem singles_calls {s : Seq} (hw : s.Sane) (h : On (fun c => c.length = 1) s) :
    s.calls = s.text.map fun c => [c] := by
  have go : ∀ l : List JStr, (∀ c ∈ l, c.length = 1) → l = l.flatten.map fun c => [c] := by
    intro l
    induction l with
    | nil => intro _; rfl
    | cons x l ih =>
      intro hl
      obtain ⟨y, rfl⟩ := List.length_eq_one_iff.1 (hl x (by simp))
      rw [List.flatten_cons, List.map_append, ← ih fun c hc => hl c (by simp [hc])]
      rfl
  rw [← calls_text hw]
  exact go _ h

/-! ### Conversions -/

theorem on_spaceJustify (one : ∀ c, Q [c]) {ctx : FormatContext} {s r : Seq} (hs : On Q s)
    (h : SeqFormatter.spaceJustify ctx s = .ok r) : On Q r := by
  unfold SeqFormatter.spaceJustify at h
  split_ifs at h
  · obtain ⟨p, hp, h⟩ := bind_eq_ok.1 h
    cases h
    exact on_append hs (on_repeated one hp)
  · obtain ⟨p, hp, h⟩ := bind_eq_ok.1 h
    cases h
    exact on_prepend hs (on_repeated one hp)
  · cases h; exact hs

theorem on_sign (one : ∀ c, Q [c]) {ctx : FormatContext} {s : Seq} (hs : On Q s) (neg : Bool) :
    On Q (SeqFormatter.sign ctx s neg) := by
  unfold SeqFormatter.sign
  split_ifs
  · exact on_prepend hs (on_ch one _)
  · exact on_prepend hs (on_ch one _)
  · exact on_prepend hs (on_ch one _)
  · exact hs

theorem on_zeroFill (one : ∀ c, Q [c]) {n : Int} {s r : Seq} (hs : On Q s)
    (h : SeqFormatter.zeroFill n s = .ok r) : On Q r := by
  unfold SeqFormatter.zeroFill at h
  split_ifs at h
  · obtain ⟨p, hp, h⟩ := bind_eq_ok.1 h
    cases h
    exact on_prepend hs (on_repeated one hp)
  · cases h; exact hs

theorem on_signAndJustify (one : ∀ c, Q [c]) {ctx : FormatContext} {s r : Seq} {neg : Bool} (hs : On Q s)
    (h : SeqFormatter.signAndJustify ctx s neg = .ok r) : On Q r := by
  unfold SeqFormatter.signAndJustify at h
  split_ifs at h
  · exact on_spaceJustify one (on_sign one hs neg) h
  all_goals
    obtain ⟨v, hv, h⟩ := bind_eq_ok.1 h
    cases h
    exact on_sign one (on_zeroFill one hs hv) neg

theorem on_frac (one : ∀ c, Q [c]) {m r : Seq} {p : Int} {alt : Bool} (hm : On Q m)
    (h : SeqFormatter.formatFractionalPart m p alt = .ok r) : On Q r := by
  obtain ⟨dot, _, ⟨_, _, rfl⟩ | ⟨_, _, rfl⟩ | ⟨_, _, q, hq, rfl⟩⟩ := Narrow.frac_cases h
  · split_ifs
    · exact on_append hm (on_ch one _)
    · exact hm
  · exact hm
  · have hq' := on_repeated one hq
    split_ifs
    · exact on_append (on_append hm (on_ch one _)) hq'
    · exact on_append hm hq'

theorem on_nonFinite (one : ∀ c, Q [c]) (W : ∀ t, t ≠ [] → Q t) {ctx : FormatContext} {v : FloatForm} {r : Seq}
    (h : SeqFormatter.nanOrInfinity ctx v = .ok r) : On Q r := by
  unfold SeqFormatter.nanOrInfinity at h
  split_ifs at h <;> exact on_spaceJustify one (on_wrap (W _)) h

/-- A layout whose calls are of a certain kind. -/
def LayoutOn (Q : JStr → Prop) (l : FloatLayout) : Prop := On Q l.mantissa ∧ ∀ ex, l.exponent = some ex → On Q ex

theorem on_f (one : ∀ c, Q [c]) {ctx : FormatContext} {v : FloatForm}
    (W : (v.isNaN || v.isInfinite) = true → ∀ t, t ≠ [] → Q t)
    (hl : ∀ l, v.decimalLayout (SeqFormatter.precision6 ctx) = .ok l → LayoutOn Q l) {r : Seq}
    (h : SeqFormatter.f ctx v = .ok r) : On Q r := by
  unfold SeqFormatter.f at h
  by_cases hn : (v.isNaN || v.isInfinite) = true
  · rw [if_pos hn] at h; exact on_nonFinite one (W hn) h
  · rw [if_neg hn] at h
    obtain ⟨l, h1, h⟩ := bind_eq_ok.1 h
    obtain ⟨m, hm, h⟩ := bind_eq_ok.1 h
    exact on_signAndJustify one (on_frac one (hl l h1).1 hm) h

theorem on_exponent {l : FloatLayout} (hl : LayoutOn Q l) {s r : Seq} (hs : On Q s)
    (h : SeqFormatter.appendExponent s l.exponent = .ok r) : On Q r := by
  cases hx : l.exponent with
  | none => rw [hx] at h; cases h
  | some ex =>
    rw [hx] at h; cases h
    exact on_append hs (hl.2 ex hx)

theorem on_e (one : ∀ c, Q [c]) {ctx : FormatContext} {v : FloatForm}
    (W : (v.isNaN || v.isInfinite) = true → ∀ t, t ≠ [] → Q t)
    (hl : ∀ l, v.scientificLayout (SeqFormatter.precision6 ctx) = .ok l → LayoutOn Q l) {r : Seq}
    (h : SeqFormatter.e ctx v = .ok r) : On Q r := by
  unfold SeqFormatter.e at h
  by_cases hn : (v.isNaN || v.isInfinite) = true
  · rw [if_pos hn] at h; exact on_nonFinite one (W hn) h
  · rw [if_neg hn] at h
    obtain ⟨l, h1, h⟩ := bind_eq_ok.1 h
    obtain ⟨m, hm, h⟩ := bind_eq_ok.1 h
    obtain ⟨m2, h2, h⟩ := bind_eq_ok.1 h
    have hg := hl l h1
    exact on_signAndJustify one (on_exponent hg (on_append (on_frac one hg.1 hm) (on_ch one _)) h2) h

theorem on_strip (K : Kind Q) {m r : Seq} (hw : m.Sane) (hm : On Q m)
    (h : SeqFormatter.stripTrailingZeros m = .ok r) : On Q r := by
  unfold SeqFormatter.stripTrailingZeros at h
  obtain ⟨dot, _, h⟩ := bind_eq_ok.1 h
  split_ifs at h
  · cases h; exact hm
  · obtain ⟨last, _, h⟩ := bind_eq_ok.1 h
    exact on_sub K hw hm h

theorem on_pad (one : ∀ c, Q [c]) {m r : Seq} {p : Int} (hm : On Q m)
    (h : SeqFormatter.padToPrecision m p = .ok r) : On Q r := by
  unfold SeqFormatter.padToPrecision at h
  obtain ⟨⟨sig0, seen⟩, _, h⟩ := bind_eq_ok.1 h
  obtain ⟨zero, _, h⟩ := bind_eq_ok.1 h
  obtain ⟨dot, _, h⟩ := bind_eq_ok.1 h
  have hm' : On Q (if dot = -1 then m.append (Seq.ch (ch! '.')) else m) := by
    split_ifs
    · exact on_append hm (on_ch one _)
    · exact hm
  generalize (if dot = -1 then m.append (Seq.ch (ch! '.')) else m) = m' at h hm'
  generalize (p - if (!seen && zero != -1) = true then 1 else sig0) = z at h
  dsimp only at h
  split_ifs at h
  · obtain ⟨q, hq, h⟩ := bind_eq_ok.1 h
    cases h
    exact on_append hm' (on_repeated one hq)
  · cases h; exact hm'

theorem on_g (K : Kind Q) {ctx : FormatContext} {v : FloatForm}
    (W : (v.isNaN || v.isInfinite) = true → ∀ t, t ≠ [] → Q t)
    (hl : ∀ l, v.generalLayout (SeqFormatter.gPrecision ctx) = .ok l → LayoutOn Q l ∧ l.mantissa.Sane) {r : Seq}
    (h : SeqFormatter.g ctx v = .ok r) : On Q r := by
  unfold SeqFormatter.g at h
  by_cases hn : (v.isNaN || v.isInfinite) = true
  · rw [if_pos hn] at h; exact on_nonFinite K.one (W hn) h
  · rw [if_neg hn] at h
    obtain ⟨⟨m, ex⟩, h0, h⟩ := bind_eq_ok.1 h
    have hb : ∃ v0, SeqFormatter.gBody ctx ⟨m, ex⟩ = .ok v0 ∧
        SeqFormatter.signAndJustify ctx v0 v.isNegative = .ok r := by
      cases ex <;> exact bind_eq_ok.1 h
    clear h
    obtain ⟨v0, h1, h⟩ := hb
    obtain ⟨hg, hmw⟩ := hl _ h0
    have hg1 := hg.1
    simp only at hg1 hmw
    suffices On Q v0 from on_signAndJustify K.one this h
    unfold SeqFormatter.gBody at h1
    cases ex with
    | none =>
      simp only [SeqFormatter.formatGDecimal] at h1
      split_ifs at h1
      · exact on_pad K.one hg1 h1
      · exact on_strip K hmw hg1 h1
    | some ex =>
      simp only [SeqFormatter.formatGScientific] at h1
      have hx := hg.2 ex rfl
      split_ifs at h1
      · cases h1
        exact on_append (on_append hg1 (on_ch K.one _)) hx
      · obtain ⟨m', h2, h1⟩ := bind_eq_ok.1 h1
        cases h1
        exact on_append (on_append (on_strip K hmw hg1 h2) (on_ch K.one _)) hx

/-! ### No call is empty -/

/-- No call is empty. -/
abbrev Full (s : Seq) : Prop := On (· ≠ []) s

theorem full_wrap (t : JStr) : Full (Seq.wrap t) := on_wrap id

theorem full_ch (c : JChar) : Full (Seq.ch c) := on_ch kind_nonempty.one c

theorem full_d {ctx : FormatContext} {v : IntForm} {r : Seq} (h : SeqFormatter.d ctx v = .ok r) : Full r := by
  unfold SeqFormatter.d at h
  split_ifs at h
  · exact on_spaceJustify kind_nonempty.one (full_ch _) h
  · exact on_spaceJustify kind_nonempty.one on_empty h
  · obtain ⟨x, _, h⟩ := bind_eq_ok.1 h
    obtain ⟨v1, h1, h⟩ := bind_eq_ok.1 h
    exact on_spaceJustify kind_nonempty.one
      (on_sign kind_nonempty.one (on_zeroFill kind_nonempty.one (full_wrap x) h1) _) h

theorem full_unsigned {ctx : FormatContext} {sg : Int} {x : Res JStr} {pre : JStr} {r : Seq}
    (h : SeqFormatter.formatUnsignedInteger ctx sg x pre = .ok r) : Full r := by
  have one := kind_nonempty.one
  unfold SeqFormatter.formatUnsignedInteger at h
  split_ifs at h
  · exact on_spaceJustify one on_empty h
  all_goals
    obtain ⟨x, _, h⟩ := bind_eq_ok.1 h
    obtain ⟨v1, h1, h⟩ := bind_eq_ok.1 h
    first
    | exact on_spaceJustify one (on_prepend (on_zeroFill one (full_wrap x) h1) (full_wrap pre)) h
    | exact on_spaceJustify one (on_zeroFill one (full_wrap x) h1) h

theorem full_aJustify {ctx : FormatContext} {s r : Seq} {neg : Bool} (hs : Full s)
    (h : SeqFormatter.aJustify ctx s neg = .ok r) : Full r := by
  have one := kind_nonempty.one
  unfold SeqFormatter.aJustify at h
  by_cases hz : (ctx.hasFlag .zeroPad && !ctx.hasFlag .leftJustify) = true
  · rw [if_pos hz] at h
    obtain ⟨v1, hv, h⟩ : ∃ v1, Full v1 ∧ r = SeqFormatter.sign ctx (v1.prepend (Seq.wrap (js! "0x"))) neg := by
      clear hz
      dsimp only at h
      split_ifs at h
      all_goals first
        | (obtain ⟨v1, h1, h⟩ := bind_eq_ok.1 h
           obtain ⟨q, hq, h1⟩ := bind_eq_ok.1 h1
           cases h1; cases h
           exact ⟨_, on_append (on_repeated one hq) hs, rfl⟩)
        | (cases h; exact ⟨_, hs, rfl⟩)
    subst h
    exact on_sign one (on_prepend hv (full_wrap _)) neg
  · rw [if_neg hz] at h
    exact on_spaceJustify one (on_sign one (on_prepend hs (full_wrap _)) neg) h

theorem full_a {ctx : FormatContext} {v : FloatForm}
    (hl : ∀ l, v.hexLayout (SeqFormatter.aPrecision ctx) = .ok l → LayoutOn (· ≠ []) l) {r : Seq}
    (h : SeqFormatter.a ctx v = .ok r) : Full r := by
  have one := kind_nonempty.one
  unfold SeqFormatter.a at h
  by_cases hn : (v.isNaN || v.isInfinite) = true
  · rw [if_pos hn] at h
    exact on_nonFinite one (fun _ h => h) h
  · rw [if_neg hn] at h
    obtain ⟨l, h0, h⟩ := bind_eq_ok.1 h
    have hg := hl l h0
    obtain ⟨m, hm, h⟩ : ∃ m, Full m ∧ (SeqFormatter.appendExponent (m.append (Seq.ch (ch! 'p'))) l.exponent >>=
        fun v2 => SeqFormatter.aJustify ctx v2 (v.signum < 0)) = .ok r := by
      split_ifs at h
      · obtain ⟨m, hm, h⟩ := bind_eq_ok.1 h
        exact ⟨m, on_frac one hg.1 hm, h⟩
      · exact ⟨l.mantissa, hg.1, h⟩
    obtain ⟨m2, h2, h⟩ := bind_eq_ok.1 h
    exact full_aJustify (on_exponent hg (on_append hm (full_ch _)) h2) h

theorem full_c {ctx : FormatContext} {v : Traits} {r : Seq} (h : SeqFormatter.c ctx v = .ok r) : Full r := by
  unfold SeqFormatter.c at h
  obtain ⟨x, _, h⟩ := bind_eq_ok.1 h
  exact on_spaceJustify kind_nonempty.one (full_ch x) h

theorem full_t {env : DateEnv} {ctx : FormatContext} {v : Traits} {r : Seq}
    (h : SeqFormatter.t env ctx v = .ok r) : Full r := by
  unfold SeqFormatter.t at h
  obtain ⟨x, _, h⟩ := bind_eq_ok.1 h
  obtain ⟨⟨f, ta⟩, _, h⟩ := bind_eq_ok.1 h
  obtain ⟨y, _, h⟩ := bind_eq_ok.1 h
  exact on_spaceJustify kind_nonempty.one (full_wrap y) h

theorem full_p {ctx : FormatContext} {v : Traits} {r : Seq} (h : SeqFormatter.p ctx v = .ok r) : Full r := by
  have one := kind_nonempty.one
  unfold SeqFormatter.p at h
  cases hv : v.ref with
  | primitive => simp only [hv] at h; cases h
  | null => simp only [hv] at h; exact on_spaceJustify one (full_wrap _) h
  | object name hash =>
    simp only [hv] at h
    exact on_spaceJustify one (on_prepend (on_prepend (full_wrap _) (full_ch _)) (full_wrap _)) h

theorem full_s {ctx : FormatContext} {v : Traits} (hv : v.WF) (hc : ∀ q, v.asSeq = .ok q → Full q) {r : Seq}
    (h : SeqFormatter.s ctx v = .ok r) : Full r := by
  have one := kind_nonempty.one
  unfold SeqFormatter.s at h
  obtain ⟨q, hq, h⟩ := bind_eq_ok.1 h
  split_ifs at h with hs
  · obtain ⟨t, ht, h⟩ := bind_eq_ok.1 h
    exact on_spaceJustify one (on_sub kind_nonempty (hv.seq q hq).sane (hc q hq) ht) h
  · exact on_spaceJustify one (hc q hq) h

end Seq

/-- An argument whose sequence makes no empty call, and whose layouts do not either. -/
structure Traits.Full (v : Traits) : Prop where
  wf : v.WF
  seq : ∀ q, v.asSeq = .ok q → q.Full
  float : ∀ f, v.asFloatForm = .ok f → ∀ p l, (f.generalLayout p = .ok l ∨ f.scientificLayout p = .ok l ∨
    f.decimalLayout p = .ok l ∨ f.hexLayout p = .ok l) → Seq.LayoutOn (· ≠ []) l

namespace Seq

/-- No conversion makes an empty call. -/
theorem full_formatter {env : DateEnv} {sp : Specifier} {ctx : FormatContext} {v : Traits}
    (hp : SeqFormatter.PrecOK ctx) (hv : v.Full) {r : Seq}
    (h : DefaultAppender.formatterFor env sp ctx v = .ok r) : Full r := by
  have one := kind_nonempty.one
  have up : ∀ {α : Type} {x : Res α} {g : α → Res Seq} {q : Seq},
      (x >>= fun a => g a >>= fun s => s.upperCase) = .ok q →
      ∃ s, (x >>= g) = .ok s ∧ s.upperCase = .ok q := by
    intro α x g q hq
    obtain ⟨a, h1, h2⟩ := bind_eq_ok.1 hq
    obtain ⟨s, h3, h4⟩ := bind_eq_ok.1 h2
    exact ⟨s, bind_eq_ok.2 ⟨a, h1, h3⟩, h4⟩
  have raise : ∀ {sp' : Specifier} {s : Seq}, DefaultAppender.formatterFor env sp' ctx v = .ok s →
      s.upperCase = .ok r → Full r := fun hs hu =>
    on_upper' kind_nonempty (formatterFor_sane hp hv.wf hs) hu
  have int : ∀ {g : IntForm → Res Seq} {s : Seq}, (∀ i s, g i = .ok s → Full s) →
      (v.asIntForm >>= g) = .ok s → Full s := by
    intro g s hg hs
    obtain ⟨i, _, h2⟩ := bind_eq_ok.1 hs
    exact hg i s h2
  cases sp with
  | d => exact int (fun _ _ => full_d) h
  | u => exact int (fun _ _ => full_unsigned) h
  | o => exact int (fun _ _ => full_unsigned) h
  | x => exact int (fun _ _ => full_unsigned) h
  | upperX => obtain ⟨s, h1, h2⟩ := up h; exact raise (sp' := .x) h1 h2
  | f =>
    obtain ⟨i, h1, h2⟩ := bind_eq_ok.1 h
    exact on_f one (fun _ _ h => h) (fun l hl => hv.float i h1 _ l (.inr (.inr (.inl hl)))) h2
  | upperF => obtain ⟨s, h1, h2⟩ := up h; exact raise (sp' := .f) h1 h2
  | e =>
    obtain ⟨i, h1, h2⟩ := bind_eq_ok.1 h
    exact on_e one (fun _ _ h => h) (fun l hl => hv.float i h1 _ l (.inr (.inl hl))) h2
  | upperE => obtain ⟨s, h1, h2⟩ := up h; exact raise (sp' := .e) h1 h2
  | g =>
    obtain ⟨i, h1, h2⟩ := bind_eq_ok.1 h
    have := SeqFormatter.gPrecision_pos hp
    exact on_g kind_nonempty (fun _ _ h => h) (fun l hl => ⟨hv.float i h1 _ l (.inl hl),
      ((hv.wf.float i h1) _ _ (by omega) (.inl hl)).1.sane⟩) h2
  | upperG => obtain ⟨s, h1, h2⟩ := up h; exact raise (sp' := .g) h1 h2
  | a =>
    obtain ⟨i, h1, h2⟩ := bind_eq_ok.1 h
    exact full_a (fun l hl => hv.float i h1 _ l (.inr (.inr (.inr hl)))) h2
  | upperA => obtain ⟨s, h1, h2⟩ := up h; exact raise (sp' := .a) h1 h2
  | c => exact full_c h
  | s => exact full_s hv.wf hv.seq h
  | upperS => obtain ⟨s, h1, h2⟩ := bind_eq_ok.1 h; exact raise (sp' := .s) h1 h2
  | t => exact full_t h
  | upperT => obtain ⟨s, h1, h2⟩ := bind_eq_ok.1 h; exact raise (sp' := .t) h1 h2
  | n => cases h; exact on_empty
  | p => exact full_p h
  | percent => cases h; exact full_ch _

end Seq
end FastPrintf
