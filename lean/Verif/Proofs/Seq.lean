import Verif.Spec.Text
import Mathlib.Tactic.IntervalCases
import Mathlib.Tactic.SplitIfs
import Mathlib.Tactic.Ring
import Mathlib.Algebra.BigOperators.Group.List.Basic

namespace FastPrintf

theorem toUpperCase_eq (c : JChar) : toUpperCase c = Spec.upper c := by
  unfold toUpperCase Spec.upper isLowerCase
  by_cases h : 97 ≤ c ∧ c ≤ 122
  · have h1 := h.1
    have h2 := h.2
    interval_cases c <;> decide
  · have : ¬ (decide (c ≥ 97) && decide (c ≤ 122)) = true := by simpa using h
    simp [h, this]

theorem toUpperCaseArr_eq (s : JStr) : toUpperCaseArr s = s.map Spec.upper := by
  induction s with
  | nil => rfl
  | cons c cs ih =>
    simp only [toUpperCaseArr, List.map_cons, ih]
    rw [← toUpperCase_eq]; rfl

theorem toUpperCaseStr_eq (s : JStr) : toUpperCaseStr s = s.map Spec.upper := by
  induction s with
  | nil => rfl
  | cons c cs ih =>
    unfold toUpperCaseStr
    split
    · rw [toUpperCaseArr_eq]
    · next h =>
      simp only [List.map_cons, ih]
      rw [← toUpperCase_eq]; simp [toUpperCase, h]

theorem caseOf_eq (up : Bool) (c : JChar) :
    Atomic.caseOf up c = if up then Spec.upper c else c := by
  cases up <;> simp [Atomic.caseOf, toUpperCase_eq]

theorem Spec.upper_upper (c : JChar) : Spec.upper (Spec.upper c) = Spec.upper c := by
  unfold Spec.upper; split_ifs <;> omega

theorem checkPositionIndex_ok {i n : Int} (h : 0 ≤ i ∧ i < n) :
    checkPositionIndex i n = .ok () := by
  unfold checkPositionIndex; rw [if_neg]; omega

theorem checkPositionIndex_err {i n : Int} (h : ¬ (0 ≤ i ∧ i < n)) :
    checkPositionIndex i n = .error .indexOutOfBounds := by
  unfold checkPositionIndex; rw [if_pos]; omega

theorem checkPositionIndexes_ok {i j n : Int} (h : 0 ≤ i ∧ i ≤ j ∧ j ≤ n) :
    checkPositionIndexes i j n = .ok () := by
  unfold checkPositionIndexes; rw [if_neg]; omega

theorem checkPositionIndexes_err {i j n : Int} (h : ¬ (0 ≤ i ∧ i ≤ j ∧ j ≤ n)) :
    checkPositionIndexes i j n = .error .indexOutOfBounds := by
  unfold checkPositionIndexes; rw [if_pos]; omega

/-! ### Leaves -/

/-- A leaf whose fields are consistent. -/
def Atomic.WF : Atomic → Prop
  | .empty => True
  | .repeated _ n => 1 ≤ n
  | .strView s st n _ => st + n ≤ s.length
  | .charArray a st n _ => st + n ≤ a.length
  | .lazy out n => n = out.length
  | .failing _ _ _ => False

namespace Atomic

theorem length_text {a : Atomic} (h : a.WF) : a.length = a.text.length := by
  cases a <;> simp_all [Atomic.WF, Atomic.length, Atomic.text] <;> omega

theorem length_nonneg (a : Atomic) : 0 ≤ a.length := by
  cases a <;> simp [Atomic.length]

theorem charAtRaw_ok {s : JStr} {i : Nat} (h : i < s.length) : charAtRaw s i = .ok s[i] := by
  simp [charAtRaw, h]

theorem view_get (s : JStr) (st n : Nat) (up : Bool) (k : Nat) (hk : k < n)
    (h : st + n ≤ s.length) :
    (((s.drop st).take n).map (fun c => if up then Spec.upper c else c))[k]? =
      some (if up then Spec.upper s[st + k] else s[st + k]) := by
  rw [List.getElem?_map, List.getElem?_take_of_lt hk, List.getElem?_drop,
    List.getElem?_eq_getElem (by omega)]
  rfl

theorem view_charAt (s : JStr) (st n : Nat) (up : Bool) (i : Int) (h : st + n ≤ s.length)
    (hi : 0 ≤ i ∧ i < n) :
    (do checkPositionIndex i n; return caseOf up (← charAtRaw s (st + i.toNat)) : Res JChar) =
      .ok ((((s.drop st).take n).map (fun c => if up then Spec.upper c else c))[i.toNat]?.getD 0) := by
  rw [checkPositionIndex_ok hi, view_get s st n up i.toNat (by omega) h]
  rw [bind_ok, charAtRaw_ok (by omega), bind_ok]
  simp [caseOf_eq]

theorem charAt_ok {a : Atomic} (h : a.WF) {i : Int} (hi : 0 ≤ i ∧ i < a.text.length) :
    a.charAt i = .ok (a.text[i.toNat]?.getD 0) := by
  have hl := length_text h
  cases a with
  | failing o n e => exact h.elim
  | empty => simp [Atomic.text] at hi; omega
  | repeated c n =>
    simp only [Atomic.text, List.length_replicate] at hi ⊢
    simp only [Atomic.charAt, checkPositionIndex_ok hi, bind_ok, pure_eq_ok]
    rw [List.getElem?_replicate, if_pos (by omega)]; rfl
  | strView s st n up =>
    simp only [Atomic.length] at hl
    exact view_charAt s st n up i h (by omega)
  | charArray s st n up =>
    simp only [Atomic.length] at hl
    exact view_charAt s st n up i h (by omega)
  | lazy out n =>
    simp only [Atomic.WF] at h; subst h
    simp only [Atomic.text] at hi ⊢
    simp only [Atomic.charAt, checkPositionIndex_ok hi, bind_ok, getCachedString, if_true]
    rw [charAtRaw_ok (by omega), List.getElem?_eq_getElem (by omega)]; rfl

theorem charAt_err {a : Atomic} (h : a.WF) {i : Int} (hi : ¬ (0 ≤ i ∧ i < a.text.length)) :
    a.charAt i = .error .indexOutOfBounds := by
  have hl := length_text h
  cases a <;> simp only [Atomic.length] at hl <;> simp only [Atomic.charAt] <;>
    first
    | rfl
    | (rw [checkPositionIndex_err (by omega)]; rfl)

theorem wf_ch (c : JChar) : (Atomic.ch c).WF := by simp [Atomic.ch, Atomic.WF]

theorem text_ch (c : JChar) : (Atomic.ch c).text = [c] := by
  simp [Atomic.ch, Atomic.text]

theorem wrap_spec (s : JStr) : (Atomic.wrap s).WF ∧ (Atomic.wrap s).text = s := by
  match s with
  | [] => simp [Atomic.wrap, Atomic.WF, Atomic.text]
  | [c] => exact ⟨wf_ch c, text_ch c⟩
  | a :: b :: t => simp [Atomic.wrap, Atomic.WF, Atomic.text]

theorem sub_singleton (s : JStr) (i : Nat) (h : i < s.length) : (s.drop i).take 1 = [s[i]] := by
  rw [List.drop_eq_getElem_cons h]; rfl

theorem wrapRange_ok {s : JStr} {i j : Int} (h : 0 ≤ i ∧ i ≤ j ∧ j ≤ s.length) :
    ∃ a, Atomic.wrapRange s i j = .ok a ∧ a.WF ∧ a.text = Spec.sub s i.toNat j.toNat := by
  unfold Atomic.wrapRange
  rw [checkPositionIndexes_ok h]
  simp only [bind_ok]
  by_cases h1 : i = j
  · subst h1
    exact ⟨.empty, by simp, trivial, by simp [Spec.sub, Atomic.text]⟩
  by_cases h2 : j = i + 1
  · subst h2
    rw [if_neg h1, if_pos rfl, charAtRaw_ok (by omega)]
    refine ⟨_, rfl, wf_ch _, ?_⟩
    rw [text_ch, Spec.sub, show (i + 1).toNat - i.toNat = 1 by omega, sub_singleton _ _ (by omega)]
  · rw [if_neg h1, if_neg h2]
    refine ⟨_, rfl, ?_, ?_⟩
    · simp only [Atomic.WF]; omega
    · simp only [Atomic.text, Spec.sub, show (j - i).toNat = j.toNat - i.toNat by omega]
      simp

theorem wrapRange_err {s : JStr} {i j : Int} (h : ¬ (0 ≤ i ∧ i ≤ j ∧ j ≤ s.length)) :
    Atomic.wrapRange s i j = .error .indexOutOfBounds := by
  unfold Atomic.wrapRange
  rw [checkPositionIndexes_err h]; rfl

theorem mkRepeated_ok {c : JChar} {n : Int} (h : 1 ≤ n) :
    ∃ a, Atomic.mkRepeated c n = .ok a ∧ a.WF ∧ a.text = List.replicate n.toNat c := by
  unfold Atomic.mkRepeated
  rw [if_pos h]
  by_cases h1 : n = 1
  · subst h1; exact ⟨_, rfl, wf_ch c, by simp [text_ch]⟩
  · rw [if_neg h1]
    refine ⟨_, rfl, ?_, rfl⟩
    simp only [Atomic.WF]; omega

theorem mkRepeated_err {c : JChar} {n : Int} (h : ¬ 1 ≤ n) :
    Atomic.mkRepeated c n = .error .illegalArgument := by
  unfold Atomic.mkRepeated; rw [if_neg h]

theorem forArray_spec (s : JStr) : (Atomic.forArray s).WF ∧ (Atomic.forArray s).text = s := by
  simp [Atomic.forArray, Atomic.WF, Atomic.text]

theorem mkLazy_ok (s : JStr) :
    ∃ a, Atomic.mkLazy s s.length = .ok a ∧ a.WF ∧ a.text = s := by
  unfold Atomic.mkLazy
  rw [if_pos (by omega)]
  match s with
  | [] => exact ⟨_, rfl, trivial, rfl⟩
  | [c] => exact ⟨_, rfl, wf_ch c, text_ch c⟩
  | a :: b :: t =>
    refine ⟨.lazy (a :: b :: t) (a :: b :: t).length, ?_, rfl, rfl⟩
    rw [if_neg (by simp; omega), if_neg (by simp; omega), Int.toNat_natCast]

theorem view_sub (s : JStr) (st n : Nat) (f : JChar → JChar) (i j : Int)
    (hi : 0 ≤ i ∧ i ≤ j ∧ j ≤ n) :
    ((s.drop (st + i.toNat)).take (j - i).toNat).map f =
      Spec.sub (((s.drop st).take n).map f) i.toNat j.toNat := by
  unfold Spec.sub
  rw [← List.map_drop, ← List.map_take, List.drop_take, List.take_take, List.drop_drop]
  congr 2; omega

theorem view_subSequence (s : JStr) (st n : Nat) (up : Bool) (i j : Int) (h : st + n ≤ s.length)
    (hi : 0 ≤ i ∧ i ≤ j ∧ j ≤ n) (mk : JStr → Nat → Nat → Bool → Atomic)
    (hwf : ∀ st n, st + n ≤ s.length → (mk s st n up).WF)
    (htx : ∀ st n, (mk s st n up).text =
      ((s.drop st).take n).map (fun c => if up then Spec.upper c else c)) :
    ∃ b, (do
      checkPositionIndexes i j n
      if i = j then return Atomic.empty
      if j = i + 1 then return ch (caseOf up (← charAtRaw s (st + i.toNat)))
      return mk s (st + i.toNat) (j - i).toNat up : Res Atomic) = .ok b ∧ b.WF ∧
      b.text = Spec.sub (((s.drop st).take n).map (fun c => if up then Spec.upper c else c))
        i.toNat j.toNat := by
  rw [checkPositionIndexes_ok hi]
  simp only [bind_ok]
  by_cases h1 : i = j
  · subst h1
    exact ⟨.empty, by simp, trivial, by simp [Spec.sub, Atomic.text]⟩
  by_cases h2 : j = i + 1
  · subst h2
    rw [if_neg h1, if_pos rfl, charAtRaw_ok (by omega)]
    refine ⟨_, rfl, wf_ch _, ?_⟩
    rw [text_ch, ← view_sub s st n _ i (i + 1) hi, show (i + 1 - i).toNat = 1 by omega,
      sub_singleton _ _ (by omega), caseOf_eq]
    rfl
  · rw [if_neg h1, if_neg h2]
    refine ⟨_, rfl, hwf _ _ (by omega), ?_⟩
    rw [htx, view_sub s st n _ i j hi]

theorem subSequence_ok {a : Atomic} (h : a.WF) {i j : Int}
    (hij : 0 ≤ i ∧ i ≤ j ∧ j ≤ a.text.length) :
    ∃ b, a.subSequence i j = .ok b ∧ b.WF ∧ b.text = Spec.sub a.text i.toNat j.toNat := by
  have hl := length_text h
  cases a with
  | failing o n e => exact h.elim
  | empty =>
    simp only [Atomic.text, List.length_nil] at hij
    have : i = 0 ∧ j = 0 := by omega
    exact ⟨.empty, by simp [Atomic.subSequence, this], trivial, by simp [Spec.sub, Atomic.text]⟩
  | repeated c n =>
    simp only [Atomic.text, List.length_replicate] at hij
    simp only [Atomic.subSequence, checkPositionIndexes_ok hij, bind_ok]
    by_cases h1 : i = j
    · subst h1
      exact ⟨.empty, by simp, trivial, by simp [Spec.sub, Atomic.text]⟩
    · rw [if_neg h1]
      refine ⟨_, rfl, ?_, ?_⟩
      · simp only [Atomic.WF]; omega
      · simp only [Atomic.text, Spec.sub, List.drop_replicate, List.take_replicate]
        congr 1; omega
  | strView s st n up =>
    simp only [Atomic.length] at hl
    exact view_subSequence s st n up i j h (by omega) Atomic.strView
      (fun _ _ h => h) (fun _ _ => rfl)
  | charArray s st n up =>
    simp only [Atomic.length] at hl
    exact view_subSequence s st n up i j h (by omega) Atomic.charArray
      (fun _ _ h => h) (fun _ _ => rfl)
  | lazy out n =>
    simp only [Atomic.WF] at h; subst h
    simp only [Atomic.text] at hij ⊢
    simp only [Atomic.subSequence, checkPositionIndexes_ok hij, bind_ok, getCachedString, if_true]
    exact wrapRange_ok hij

theorem subSequence_err {a : Atomic} (h : a.WF) {i j : Int}
    (hij : ¬ (0 ≤ i ∧ i ≤ j ∧ j ≤ a.text.length)) :
    ∃ e, a.subSequence i j = .error e := by
  have hl := length_text h
  cases a <;> simp only [Atomic.length] at hl <;> simp only [Atomic.subSequence]
  · refine ⟨.illegalArgument, ?_⟩
    rw [if_neg]; rintro ⟨rfl, rfl⟩; simp at hij
  all_goals exact ⟨.indexOutOfBounds, by rw [checkPositionIndexes_err (by omega)]; rfl⟩

theorem upperCase_view (s : JStr) (st n : Nat) (up : Bool) :
    ((s.drop st).take n).map (fun c => if true = true then Spec.upper c else c) =
    (((s.drop st).take n).map (fun c => if up = true then Spec.upper c else c)).map Spec.upper := by
  rw [List.map_map]
  apply List.map_congr_left
  intro c _
  cases up <;> simp [Spec.upper_upper]

theorem upper_of_not_lower {c : JChar} (h : ¬ isLowerCase c = true) : Spec.upper c = c := by
  rw [← toUpperCase_eq, toUpperCase, if_neg h]

theorem upperCase_repeated_ok (c : JChar) (n : Nat) (h : 1 ≤ n) :
    ∃ b, (if isLowerCase c then
      if n = 1 then .ok (ch (toUpperCase c)) else .ok (repeated (toUpperCase c) n)
    else .ok (repeated c n) : Res Atomic) = .ok b ∧ b.WF ∧
      b.text = (List.replicate n c).map Spec.upper := by
  by_cases hc : isLowerCase c = true
  · rw [if_pos hc]
    by_cases hn : n = 1
    · subst hn
      exact ⟨_, rfl, wf_ch _, by simp [text_ch, toUpperCase_eq]⟩
    · rw [if_neg hn]
      exact ⟨_, rfl, h, by simp [Atomic.text, toUpperCase_eq]⟩
  · rw [if_neg hc]
    exact ⟨_, rfl, h, by simp [Atomic.text, upper_of_not_lower hc]⟩

theorem upperCase_ok {a : Atomic} (h : a.WF) :
    ∃ b, a.upperCase = .ok b ∧ b.WF ∧ b.text = a.text.map Spec.upper := by
  cases a with
  | failing o n e => exact h.elim
  | empty => exact ⟨_, rfl, trivial, rfl⟩
  | repeated c n => exact upperCase_repeated_ok c n h
  | strView s st n up => exact ⟨_, rfl, h, upperCase_view s st n up⟩
  | charArray s st n up => exact ⟨_, rfl, h, upperCase_view s st n up⟩
  | lazy out n =>
    simp only [Atomic.WF] at h; subst h
    simp only [Atomic.upperCase, getCachedString, if_true, bind_ok, Atomic.text]
    match out with
    | [] => exact ⟨_, rfl, trivial, rfl⟩
    | [c] => exact upperCase_repeated_ok c 1 (by omega)
    | a :: b :: t =>
      refine ⟨.strView (a :: b :: t) 0 (a :: b :: t).length true, rfl, ?_, ?_⟩
      · simp [Atomic.WF]
      · simp

/-! indexOf -/

theorem firstIndex_ge (s : JStr) (c : JChar) : -1 ≤ Spec.firstIndex s c := by
  induction s with
  | nil => simp [Spec.firstIndex]
  | cons x xs ih => simp only [Spec.firstIndex]; split_ifs <;> omega

theorem firstIndex_append (s t : JStr) (c : JChar) :
    Spec.firstIndex (s ++ t) c =
      if Spec.firstIndex s c ≠ -1 then Spec.firstIndex s c
      else if Spec.firstIndex t c ≠ -1 then s.length + Spec.firstIndex t c else -1 := by
  induction s with
  | nil => simp [Spec.firstIndex]
  | cons x xs ih =>
    have h1 := firstIndex_ge xs c
    have h2 := firstIndex_ge t c
    simp only [List.cons_append, Spec.firstIndex, ih, List.length_cons]
    split_ifs <;> simp_all <;> omega

theorem firstIndex_eq_neg (s : JStr) (c : JChar) : Spec.firstIndex s c = -1 ↔ c ∉ s := by
  induction s with
  | nil => simp [Spec.firstIndex]
  | cons x xs ih =>
    have h1 := firstIndex_ge xs c
    simp only [Spec.firstIndex, List.mem_cons, not_or]
    by_cases hx : x = c
    · simp [hx]
    · rw [if_neg hx]
      by_cases hy : Spec.firstIndex xs c = -1
      · simp [hy, ih.1 hy, Ne.symm hx]
      · rw [if_neg hy]
        constructor
        · intro h; omega
        · rintro ⟨_, h⟩; exact absurd (ih.2 h) hy

theorem firstIndex_lt (s : JStr) (c : JChar) : Spec.firstIndex s c < s.length := by
  induction s with
  | nil => simp [Spec.firstIndex]
  | cons x xs ih =>
    simp only [Spec.firstIndex, List.length_cons]; split_ifs <;> omega

theorem findIdx_firstIndex (s : JStr) (c : JChar) :
    (match s.findIdx? (· == c) with | some i => (i : Int) | none => -1) = Spec.firstIndex s c := by
  induction s with
  | nil => rfl
  | cons x xs ih =>
    rw [List.findIdx?_cons]
    simp only [Spec.firstIndex]
    by_cases hx : x = c
    · simp [hx]
    · rw [← ih]
      simp only [beq_iff_eq, hx, if_false]
      cases h : List.findIdx? (fun x => x == c) xs with
      | none => simp
      | some k => simp

theorem fastIndexOf_eq (s : JStr) (st n : Nat) (c : JChar) (h : st + n ≤ s.length) :
    fastIndexOf s st n c = Spec.firstIndex ((s.drop st).take n) c := by
  have key := findIdx_firstIndex (s.drop st) c
  have hsplit : s.drop st = (s.drop st).take n ++ (s.drop st).drop n := by simp
  have hap := firstIndex_append ((s.drop st).take n) ((s.drop st).drop n) c
  rw [← hsplit] at hap
  have hlen : ((s.drop st).take n).length = n := by simp; omega
  have hlt := firstIndex_lt ((s.drop st).take n) c
  have hge := firstIndex_ge ((s.drop st).take n) c
  have hge2 := firstIndex_ge ((s.drop st).drop n) c
  rw [hlen] at hlt hap
  unfold fastIndexOf indexOfFrom
  cases hf : List.findIdx? (fun x => x == c) (s.drop st) with
  | none =>
    simp only [hf] at key
    simp only
    rw [← key] at hap
    split_ifs at hap <;> simp_all
  | some k =>
    simp only [hf] at key
    rw [← key] at hap
    simp only
    split_ifs at hap ⊢ <;> omega

theorem scanFor_eq (s : JStr) (st : Nat) (up : Bool) (c : JChar) (n i : Nat)
    (h : st + i + n ≤ s.length) :
    scanFor s st up c n i = .ok (
      let r := Spec.firstIndex (((s.drop (st + i)).take n).map
        (fun c => if up then Spec.upper c else c)) c
      if r = -1 then -1 else r + i) := by
  induction n generalizing i with
  | zero => simp [scanFor, Spec.firstIndex]
  | succ n ih =>
    unfold scanFor
    rw [charAtRaw_ok (by omega), bind_ok, List.drop_eq_getElem_cons (by omega : st + i < s.length)]
    simp only [List.take_succ_cons, List.map_cons, Spec.firstIndex, caseOf_eq]
    by_cases hx : (if up then Spec.upper s[st + i] else s[st + i]) = c
    · simp [hx]
    · rw [if_neg hx, if_neg hx, ih (i + 1) (by omega)]
      rw [show st + (i + 1) = st + i + 1 by omega]
      have := firstIndex_ge ((List.drop (st + i + 1) s |>.take n).map
        (fun c => if up then Spec.upper c else c)) c
      simp only
      split_ifs <;> simp_all <;> omega

theorem scanCharAt_eq (a : Atomic) (h : a.WF) (c : JChar) (n i : Nat)
    (hn : i + n = a.text.length) :
    scanCharAt a c n i = .ok (
      let r := Spec.firstIndex (a.text.drop i) c
      if r = -1 then -1 else r + i) := by
  induction n generalizing i with
  | zero =>
    have : a.text.drop i = [] := by simp; omega
    simp [scanCharAt, Spec.firstIndex, this]
  | succ n ih =>
    unfold scanCharAt
    rw [charAt_ok h (by omega), bind_ok, List.drop_eq_getElem_cons (by omega : i < a.text.length)]
    rw [Int.toNat_natCast, List.getElem?_eq_getElem (by omega : i < a.text.length),
      Option.getD_some]
    have hge := firstIndex_ge (a.text.drop (i + 1)) c
    by_cases hx : a.text[i] = c
    · simp only [Spec.firstIndex, if_pos hx]; simp
    · rw [if_neg hx, ih (i + 1) (by omega)]
      simp only [Spec.firstIndex, if_neg hx]
      generalize Spec.firstIndex (a.text.drop (i + 1)) c = r at *
      split_ifs <;> simp_all <;> omega

theorem upper_ne_lower {c x : JChar} (h : isLowerCase c = true) : Spec.upper x ≠ c := by
  simp only [isLowerCase, Bool.and_eq_true, decide_eq_true_eq] at h
  unfold Spec.upper; split_ifs <;> omega

theorem firstIndex_upper_lower {c : JChar} (h : isLowerCase c = true) (l : JStr) :
    Spec.firstIndex (l.map Spec.upper) c = -1 := by
  rw [firstIndex_eq_neg]
  intro hm
  obtain ⟨x, _, hx⟩ := List.mem_map.1 hm
  exact upper_ne_lower h hx

theorem firstIndex_upper_other {c : JChar} (h1 : ¬ isLowerCase c = true)
    (h2 : ¬ isUpperCase c = true) (l : JStr) :
    Spec.firstIndex (l.map Spec.upper) c = Spec.firstIndex l c := by
  induction l with
  | nil => rfl
  | cons x xs ih =>
    simp only [List.map_cons, Spec.firstIndex, ih]
    have : (Spec.upper x = c) ↔ (x = c) := by
      simp only [isLowerCase, isUpperCase, Bool.and_eq_true, decide_eq_true_eq] at h1 h2
      unfold Spec.upper; split_ifs <;> omega
    simp [this]

theorem indexOf_ok {a : Atomic} (h : a.WF) (c : JChar) :
    a.indexOf c = .ok (Spec.firstIndex a.text c) := by
  have key : ∀ r : Int, (if r = -1 then (-1 : Int) else r + ((0 : Nat) : Int)) = r := by
    intro r; split_ifs <;> simp_all
  cases a with
  | failing o n e => exact h.elim
  | empty => rfl
  | repeated x n =>
    simp only [Atomic.WF] at h
    simp only [Atomic.indexOf, Atomic.text]
    obtain ⟨m, rfl⟩ : ∃ m, n = m + 1 := ⟨n - 1, by omega⟩
    by_cases hx : x = c
    · simp [hx, List.replicate_succ, Spec.firstIndex]
    · have : Spec.firstIndex (List.replicate (m + 1) x) c = -1 := by
        rw [firstIndex_eq_neg]; intro hm
        exact hx (List.eq_of_mem_replicate hm).symm
      simp [hx, this]
  | strView s st n up =>
    simp only [Atomic.indexOf, Atomic.text]
    cases up with
    | false => simp [fastIndexOf_eq s st n c h]
    | true =>
      simp only [if_true]
      by_cases h1 : isLowerCase c = true
      · rw [if_pos h1, firstIndex_upper_lower h1]
      · rw [if_neg h1]
        by_cases h2 : isUpperCase c = true
        · rw [if_neg (by simp [h2]), scanFor_eq s st true c n 0 (by rw [Nat.add_zero]; exact h)]
          simp only [key, Nat.add_zero, if_true]
        · rw [if_pos (by simp [h2]), fastIndexOf_eq s st n c h, firstIndex_upper_other h1 h2]
  | charArray s st n up =>
    simp only [Atomic.indexOf, Atomic.text]
    cases up with
    | false =>
      simp only [Bool.false_eq_true, if_false]
      rw [scanFor_eq s st false c n 0 (by rw [Nat.add_zero]; exact h)]
      simp only [key, Nat.add_zero, Bool.false_eq_true, if_false]
    | true =>
      simp only [if_true]
      by_cases h1 : isLowerCase c = true
      · rw [if_pos h1, firstIndex_upper_lower h1]
      · rw [if_neg h1, scanFor_eq s st true c n 0 (by rw [Nat.add_zero]; exact h)]
        simp only [key, Nat.add_zero, if_true]
  | lazy out n =>
    simp only [Atomic.WF] at h; subst h
    simp only [Atomic.indexOf]
    rw [scanCharAt_eq (.lazy out out.length) rfl c out.length 0 (by simp [Atomic.text])]
    simp only [key, List.drop_zero]

/-! appendTo -/

theorem appendLoop_eq (s : JStr) (up : Bool) (n st : Nat) (sb : JStr) (h : st + n ≤ s.length) :
    appendLoop s up n st sb =
      .ok (sb ++ ((s.drop st).take n).map (fun c => if up then Spec.upper c else c)) := by
  induction n generalizing st sb with
  | zero => simp [appendLoop]
  | succ n ih =>
    unfold appendLoop
    rw [charAtRaw_ok (by omega), bind_ok, ih (st + 1) _ (by omega),
      List.drop_eq_getElem_cons (by omega : st < s.length)]
    simp only [caseOf_eq, List.take_succ_cons, List.map_cons, List.append_assoc, List.singleton_append]

theorem copyRange_ok {s : JStr} {st n : Nat} (h : st + n ≤ s.length) :
    copyRange s st n = .ok ((s.drop st).take n) := by
  simp [copyRange, h, slice]

theorem appendToSB_ok {a : Atomic} (h : a.WF) (sb : JStr) :
    a.appendToSB sb = .ok (sb ++ a.text) := by
  cases a with
  | failing o n e => exact h.elim
  | empty => simp [Atomic.appendToSB, Atomic.text]
  | repeated c n => rfl
  | strView s st n up =>
    simp only [Atomic.appendToSB, Atomic.text]
    simp only [Atomic.WF] at h
    rw [copyRange_ok h, appendLoop_eq _ _ _ _ _ h]
    cases up with
    | true => simp [toUpperCaseArr_eq]
    | false =>
      by_cases h2 : st = 0 ∧ n = s.length
      · obtain ⟨rfl, rfl⟩ := h2; simp
      · simp [h2]
  | charArray s st n up =>
    simp only [Atomic.appendToSB, Atomic.text]
    simp only [Atomic.WF] at h
    rw [copyRange_ok h, appendLoop_eq _ _ _ _ _ h]
    cases up <;> simp [toUpperCaseArr_eq]
  | lazy out n => rfl

theorem chunkLoop_eq (s : JStr) (up : Bool) (n st : Nat) (h : st + n ≤ s.length) :
    chunkLoop s up n st =
      .ok ((((s.drop st).take n).map (fun c => if up then Spec.upper c else c)).map (fun c => [c])) := by
  induction n generalizing st with
  | zero => simp [chunkLoop]
  | succ n ih =>
    unfold chunkLoop
    rw [charAtRaw_ok (by omega), bind_ok, ih (st + 1) (by omega),
      List.drop_eq_getElem_cons (by omega : st < s.length)]
    simp only [caseOf_eq, List.take_succ_cons, List.map_cons, bind_ok, pure_eq_ok]

theorem flatten_singletons (l : JStr) : (l.map (fun c => [c])).flatten = l := by
  induction l with
  | nil => rfl
  | cons c cs ih => simp [ih]

theorem appendToCalls_ok {a : Atomic} (h : a.WF) :
    ∃ cs, a.appendToCalls = .ok cs ∧ cs.flatten = a.text := by
  cases a with
  | failing o n e => exact h.elim
  | empty => exact ⟨_, rfl, rfl⟩
  | repeated c n =>
    refine ⟨_, rfl, ?_⟩
    simp [Atomic.text]
  | strView s st n up =>
    simp only [Atomic.appendToCalls, Atomic.text]
    simp only [Atomic.WF] at h
    rw [copyRange_ok h, chunkLoop_eq _ _ _ _ h]
    cases up with
    | true => exact ⟨_, rfl, flatten_singletons _⟩
    | false => exact ⟨_, rfl, by simp⟩
  | charArray s st n up =>
    simp only [Atomic.appendToCalls, Atomic.text]
    simp only [Atomic.WF] at h
    rw [chunkLoop_eq _ _ _ _ h]
    exact ⟨_, rfl, flatten_singletons _⟩
  | lazy out n =>
    simp only [Atomic.WF] at h; subst h
    exact ⟨[out], by simp [Atomic.appendToCalls, getCachedString], by simp [Atomic.text]⟩

theorem toStr_ok {a : Atomic} (h : a.WF) : a.toStr = .ok a.text := by
  cases a with
  | failing o n e => exact h.elim
  | empty => rfl
  | repeated c n => rfl
  | strView s st n up =>
    simp only [Atomic.toStr, Atomic.text]
    simp only [Atomic.WF] at h
    rw [copyRange_ok h]
    cases up <;> simp [toUpperCaseArr_eq]
  | charArray s st n up =>
    simp only [Atomic.toStr, Atomic.text]
    simp only [Atomic.WF] at h
    rw [copyRange_ok h, appendLoop_eq _ _ _ _ _ h]
    cases up <;> simp [toUpperCaseArr_eq]
  | lazy out n =>
    simp only [Atomic.WF] at h; subst h
    simp [Atomic.toStr, getCachedString, Atomic.text]

end Atomic

/-! ### Composites -/

namespace Seq

/-- A rope whose leaves are consistent and whose stored lengths are right. -/
def WF : Seq → Prop
  | .atom a => a.WF
  | .concat l r n _ => l.WF ∧ r.WF ∧ n = l.length + r.length
  | .array es n => es ≠ [] ∧ (∀ a ∈ es, a.WF) ∧ n = (es.map Atomic.length).sum

/-- A rope whose leaves are consistent; the stored length of an array may be wrong, but it is
positive when the text is not empty. -/
def Sane : Seq → Prop
  | .atom a => a.WF
  | .concat l r n _ => l.Sane ∧ r.Sane ∧ n = l.length + r.length
  | .array es n => es ≠ [] ∧ (∀ a ∈ es, a.WF) ∧ 0 ≤ n ∧ (n = 0 → es.flatMap Atomic.text = [])

theorem sum_lengths {es : List Atomic} (h : ∀ a ∈ es, a.WF) :
    (es.map Atomic.length).sum = ((es.flatMap Atomic.text).length : Int) := by
  induction es with
  | nil => simp
  | cons a es ih =>
    simp only [List.map_cons, List.sum_cons, List.flatMap_cons, List.length_append]
    rw [ih (fun b hb => h b (List.mem_cons_of_mem _ hb)), Atomic.length_text (h a (by simp))]
    omega

theorem WF.sane {s : Seq} (h : s.WF) : s.Sane := by
  induction s with
  | atom a => exact h
  | concat l r n k ihl ihr => exact ⟨ihl h.1, ihr h.2.1, h.2.2⟩
  | array es n =>
    obtain ⟨h1, h2, h3⟩ := h
    have := sum_lengths h2
    refine ⟨h1, h2, by omega, fun h0 => ?_⟩
    apply List.eq_nil_of_length_eq_zero; omega

theorem WF.length_text {s : Seq} (h : s.WF) : s.length = s.text.length := by
  induction s with
  | atom a => exact Atomic.length_text h
  | concat l r n k ihl ihr =>
    simp only [Seq.length, Seq.text, List.length_append]
    rw [h.2.2, ihl h.1, ihr h.2.1]; omega
  | array es n =>
    simp only [Seq.length, Seq.text]
    rw [h.2.2, sum_lengths h.2.1]

theorem Sane.length_nonneg {s : Seq} (h : s.Sane) : 0 ≤ s.length := by
  induction s with
  | atom a => exact Atomic.length_nonneg a
  | concat l r n k ihl ihr =>
    have := ihl h.1; have := ihr h.2.1; have := h.2.2
    simp only [Seq.length]; omega
  | array es n => exact h.2.2.1

theorem Sane.text_of_length_zero {s : Seq} (h : s.Sane) (h0 : s.length = 0) : s.text = [] := by
  induction s with
  | atom a =>
    have := Atomic.length_text h
    simp only [Seq.length] at h0
    apply List.eq_nil_of_length_eq_zero; simp only [Seq.text]; omega
  | concat l r n k ihl ihr =>
    have h1 := h.1.length_nonneg
    have h2 := h.2.1.length_nonneg
    have h3 := h.2.2
    simp only [Seq.length] at h0
    simp only [Seq.text, ihl h.1 (by omega), ihr h.2.1 (by omega), List.append_nil]
  | array es n => exact h.2.2.2 h0

/-- The leaves from left to right. -/
def flat : Seq → List Atomic
  | .atom a => [a]
  | .concat l r _ _ => l.flat ++ r.flat
  | .array es _ => es

theorem flat_wf {s : Seq} (h : s.Sane) : ∀ a ∈ s.flat, a.WF := by
  induction s with
  | atom a => intro b hb; rw [flat, List.mem_singleton] at hb; subst hb; exact h
  | concat l r n k ihl ihr =>
    intro a ha
    rcases List.mem_append.1 ha with h1 | h1
    · exact ihl h.1 a h1
    · exact ihr h.2.1 a h1
  | array es n => exact h.2.1

theorem flat_text (s : Seq) : s.flat.flatMap Atomic.text = s.text := by
  induction s with
  | atom a => simp [flat, text]
  | concat l r n k ihl ihr => simp [flat, text, ihl, ihr]
  | array es n => rfl

theorem flatMap_flat_atom (l : List Atomic) : (l.map atom).flatMap flat = l := by
  induction l with
  | nil => rfl
  | cons b bs ih => rw [List.map_cons, List.flatMap_cons, ih]; rfl

theorem sum_leafCount_atom (l : List Atomic) : (l.map (leafCount ∘ atom)).sum = l.length := by
  induction l with
  | nil => rfl
  | cons b bs ih =>
    simp only [List.map_cons, List.sum_cons, List.length_cons, ih]
    simp [leafCount]; omega

theorem unfoldLoop_spec {s : Seq} (h : s.Sane) (st : List Seq) :
    ∃ a st', unfoldLoop s st = .ok (a, st') ∧
      s.flat ++ st.flatMap flat = a :: st'.flatMap flat ∧
      (s.leafCount + (st.map leafCount).sum = 1 + (st'.map leafCount).sum) ∧
      ((∀ x ∈ st, x.Sane) → ∀ x ∈ st', x.Sane) := by
  induction s generalizing st with
  | atom a => exact ⟨a, st, rfl, rfl, rfl, id⟩
  | concat l r n k ihl ihr =>
    obtain ⟨a, st', h1, h2, h3, h4⟩ := ihl h.1 (r :: st)
    refine ⟨a, st', h1, ?_, ?_, ?_⟩
    · rw [← h2]; simp [flat]
    · simp only [leafCount, List.map_cons, List.sum_cons] at h3 ⊢; omega
    · intro hs
      apply h4
      intro x hx
      rcases List.mem_cons.1 hx with rfl | hx
      · exact h.2.1
      · exact hs x hx
  | array es n =>
    obtain ⟨h1, h2, h3⟩ := h
    match es, h1 with
    | a :: rest, _ =>
      clear h1
      refine ⟨a, rest.map atom ++ st, rfl, ?_, ?_, ?_⟩
      · simp only [flat, List.cons_append, List.flatMap_append, List.cons.injEq, true_and]
        congr 1
        exact (flatMap_flat_atom rest).symm
      · simp only [leafCount, List.length_cons, List.map_append, List.sum_append, List.map_map]
        have := sum_leafCount_atom rest
        omega
      · intro hs x hx
        rcases List.mem_append.1 hx with hx | hx
        · obtain ⟨b, hb, rfl⟩ := List.mem_map.1 hx
          exact h2 b (List.mem_cons_of_mem _ hb)
        · exact hs x hx

theorem iterate_ok (fuel : Nat) (st : List Seq) (hs : ∀ x ∈ st, x.Sane)
    (hf : (st.map leafCount).sum ≤ fuel) : iterate fuel st = .ok (st.flatMap flat) := by
  induction fuel generalizing st with
  | zero =>
    match st with
    | [] => rfl
    | s :: st =>
      obtain ⟨a, st', _, _, h3, _⟩ := unfoldLoop_spec (hs s (by simp)) st
      simp only [List.map_cons, List.sum_cons] at hf
      omega
  | succ fuel ih =>
    match st with
    | [] => rfl
    | s :: st =>
      obtain ⟨a, st', h1, h2, h3, h4⟩ := unfoldLoop_spec (hs s (by simp)) st
      simp only [List.map_cons, List.sum_cons] at hf
      unfold iterate
      rw [h1, bind_ok]
      simp only
      rw [ih st' (h4 fun x hx => hs x (List.mem_cons_of_mem _ hx)) (by omega), List.flatMap_cons, h2]
      rfl

theorem leaves_ok {s : Seq} (h : s.Sane) : s.leaves = .ok s.flat := by
  cases s with
  | atom a => rfl
  | concat l r n k =>
    have := iterate_ok (leafCount (concat l r n k)) [concat l r n k]
      (by intro x hx; rw [List.mem_singleton] at hx; subst hx; exact h) (by simp)
    rw [List.flatMap_singleton] at this
    exact this
  | array es n => rfl

/-! Operations -/

theorem charAtLoop_ok (es : List Atomic) (h : ∀ a ∈ es, a.WF) (i : Int)
    (hi : 0 ≤ i ∧ i < (es.flatMap Atomic.text).length) :
    charAtLoop es i = .ok ((es.flatMap Atomic.text)[i.toNat]?.getD 0) := by
  induction es generalizing i with
  | nil => simp at hi; omega
  | cons a es ih =>
    have ha := h a (by simp)
    have hl := Atomic.length_text ha
    simp only [List.flatMap_cons, List.length_append] at hi ⊢
    unfold charAtLoop
    by_cases hlt : i < a.length
    · rw [if_pos hlt, Atomic.charAt_ok ha (by omega), List.getElem?_append_left (by omega)]
    · rw [if_neg hlt, ih (fun b hb => h b (List.mem_cons_of_mem _ hb)) _ (by omega),
        List.getElem?_append_right (by omega)]
      congr 3; omega

theorem charAt_ok {s : Seq} (h : s.WF) {i : Int} (hi : 0 ≤ i ∧ i < s.text.length) :
    s.charAt i = .ok (s.text[i.toNat]?.getD 0) := by
  have hl := h.length_text
  cases s with
  | atom a => exact Atomic.charAt_ok h hi
  | concat l r n k =>
    simp only [charAt, leaves_ok h.sane, checkPositionIndex_ok (hl ▸ hi), bind_ok]
    rw [← flat_text] at hi ⊢
    exact charAtLoop_ok _ (flat_wf h.sane) i hi
  | array es n =>
    simp only [charAt, leaves_ok h.sane, checkPositionIndex_ok (hl ▸ hi), bind_ok]
    rw [← flat_text] at hi ⊢
    exact charAtLoop_ok _ (flat_wf h.sane) i hi

theorem charAt_err {s : Seq} (h : s.WF) {i : Int} (hi : ¬ (0 ≤ i ∧ i < s.text.length)) :
    s.charAt i = .error .indexOutOfBounds := by
  have hl := h.length_text
  cases s with
  | atom a => exact Atomic.charAt_err h hi
  | concat l r n k => simp only [charAt, checkPositionIndex_err (hl ▸ hi)]; rfl
  | array es n => simp only [charAt, checkPositionIndex_err (hl ▸ hi)]; rfl

theorem indexOfLoop_ok (es : List Atomic) (h : ∀ a ∈ es, a.WF) (c : JChar) (k : Int) :
    indexOfLoop c es k = .ok (
      if Spec.firstIndex (es.flatMap Atomic.text) c = -1 then -1
      else Spec.firstIndex (es.flatMap Atomic.text) c + k) := by
  induction es generalizing k with
  | nil => simp [indexOfLoop, Spec.firstIndex]
  | cons a es ih =>
    have ha := h a (by simp)
    unfold indexOfLoop
    rw [Atomic.indexOf_ok ha, bind_ok, List.flatMap_cons, Atomic.firstIndex_append,
      ih (fun b hb => h b (List.mem_cons_of_mem _ hb)), Atomic.length_text ha]
    have h1 := Atomic.firstIndex_ge a.text c
    have h2 := Atomic.firstIndex_ge (es.flatMap Atomic.text) c
    generalize Spec.firstIndex a.text c = x at *
    generalize Spec.firstIndex (es.flatMap Atomic.text) c = y at *
    by_cases hx : x = -1
    · by_cases hy : y = -1
      · simp [hx, hy]
      · simp only [hx, hy, ne_eq, not_true_eq_false, not_false_eq_true, if_true, if_false]
        rw [if_neg (by omega)]; congr 1; omega
    · simp only [hx, ne_eq, not_false_eq_true, if_true, if_false]; rfl

theorem indexOf_ok {s : Seq} (h : s.Sane) (c : JChar) :
    s.indexOf c = .ok (Spec.firstIndex s.text c) := by
  have key : ∀ r : Int, (if r = -1 then (-1 : Int) else r + 0) = r := by
    intro r; split_ifs <;> simp_all
  cases s with
  | atom a => exact Atomic.indexOf_ok h c
  | concat l r n k =>
    simp only [indexOf, leaves_ok h, bind_ok, indexOfLoop_ok _ (flat_wf h), flat_text, key]
  | array es n =>
    simp only [indexOf, leaves_ok h, bind_ok, indexOfLoop_ok _ (flat_wf h), flat_text, key]

theorem appendLeavesSB_ok (es : List Atomic) (h : ∀ a ∈ es, a.WF) (sb : JStr) :
    appendLeavesSB es sb = .ok (sb ++ es.flatMap Atomic.text) := by
  induction es generalizing sb with
  | nil => simp [appendLeavesSB]
  | cons a es ih =>
    unfold appendLeavesSB
    rw [Atomic.appendToSB_ok (h a (by simp)), bind_ok,
      ih (fun b hb => h b (List.mem_cons_of_mem _ hb))]
    simp

theorem appendToSB_ok {s : Seq} (h : s.Sane) (sb : JStr) :
    s.appendToSB sb = .ok (sb ++ s.text) := by
  cases s with
  | atom a => exact Atomic.appendToSB_ok h sb
  | concat l r n k =>
    simp only [appendToSB, leaves_ok h, bind_ok, appendLeavesSB_ok _ (flat_wf h), flat_text]
  | array es n =>
    simp only [appendToSB, leaves_ok h, bind_ok, appendLeavesSB_ok _ (flat_wf h), flat_text]

theorem leavesCalls_ok (es : List Atomic) (h : ∀ a ∈ es, a.WF) :
    ∃ cs, leavesCalls es = .ok cs ∧ cs.flatten = es.flatMap Atomic.text := by
  induction es with
  | nil => exact ⟨_, rfl, rfl⟩
  | cons a es ih =>
    obtain ⟨c1, h1, h2⟩ := Atomic.appendToCalls_ok (h a (by simp))
    obtain ⟨c2, h3, h4⟩ := ih (fun b hb => h b (List.mem_cons_of_mem _ hb))
    refine ⟨c1 ++ c2, ?_, ?_⟩
    · simp [leavesCalls, h1, h3]
    · simp [h2, h4]

theorem appendToCalls_ok {s : Seq} (h : s.Sane) :
    ∃ cs, s.appendToCalls = .ok cs ∧ cs.flatten = s.text := by
  cases s with
  | atom a => exact Atomic.appendToCalls_ok h
  | concat l r n k =>
    simp only [appendToCalls, leaves_ok h, bind_ok]
    rw [← flat_text]; exact leavesCalls_ok _ (flat_wf h)
  | array es n =>
    simp only [appendToCalls, leaves_ok h, bind_ok]
    rw [← flat_text]; exact leavesCalls_ok _ (flat_wf h)

theorem toStr_ok {s : Seq} (h : s.Sane) : s.toStr = .ok s.text := by
  cases s with
  | atom a => exact Atomic.toStr_ok h
  | concat l r n k => exact appendToSB_ok h []
  | array es n => exact appendToSB_ok h []

theorem mapM_upper_ok (es : List Atomic) (h : ∀ a ∈ es, a.WF) :
    ∃ bs, es.mapM Atomic.upperCase = .ok bs ∧ (∀ b ∈ bs, b.WF) ∧
      bs.flatMap Atomic.text = (es.flatMap Atomic.text).map Spec.upper ∧
      (bs = [] ↔ es = []) := by
  induction es with
  | nil => exact ⟨[], rfl, by simp, by simp, by simp⟩
  | cons a es ih =>
    obtain ⟨b, h1, h2, h3⟩ := Atomic.upperCase_ok (h a (by simp))
    obtain ⟨bs, h4, h5, h6, _⟩ := ih (fun b hb => h b (List.mem_cons_of_mem _ hb))
    refine ⟨b :: bs, ?_, ?_, ?_, by simp⟩
    · simp [List.mapM_cons, h1, h4]
    · intro x hx
      rcases List.mem_cons.1 hx with rfl | hx
      · exact h2
      · exact h5 x hx
    · simp [h3, h6]

theorem flat_ne_nil {s : Seq} (h : s.Sane) : s.flat ≠ [] := by
  induction s with
  | atom a => simp [flat]
  | concat l r n k ihl _ => simp [flat, ihl h.1]
  | array es n => exact h.1

theorem upperCase_sane {s : Seq} (h : s.Sane) :
    ∃ u, s.upperCase = .ok u ∧ u.Sane ∧ u.text = s.text.map Spec.upper ∧ u.length = s.length := by
  have go : ∀ n : Int, 0 ≤ n → (n = 0 → s.text = []) →
      ∃ u, (do return array (← (← s.leaves).mapM Atomic.upperCase) n : Res Seq) = .ok u ∧ u.Sane ∧
        u.text = s.text.map Spec.upper ∧ u.length = n := by
    intro n hn h0
    obtain ⟨bs, h1, h2, h3, h4⟩ := mapM_upper_ok s.flat (flat_wf h)
    rw [flat_text] at h3
    refine ⟨array bs n, ?_, ⟨?_, h2, hn, ?_⟩, h3, rfl⟩
    · rw [leaves_ok h, bind_ok, h1]; rfl
    · intro hb; exact flat_ne_nil h (h4.1 hb)
    · intro hz; rw [h3, h0 hz]; rfl
  cases s with
  | atom a =>
    obtain ⟨b, h1, h2, h3⟩ := Atomic.upperCase_ok h
    refine ⟨atom b, by simp [upperCase, h1], h2, h3, ?_⟩
    have e1 := Atomic.length_text h2
    have e2 := Atomic.length_text (show a.WF from h)
    simp only [Seq.length, e1, e2, h3, List.length_map]
  | concat l r n k => exact go n h.length_nonneg h.text_of_length_zero
  | array es n => exact go n h.length_nonneg h.text_of_length_zero

theorem upperCase_ok {s : Seq} (h : s.WF) :
    ∃ u, s.upperCase = .ok u ∧ u.WF ∧ u.text = s.text.map Spec.upper := by
  have hl := h.length_text
  have go : ∀ n : Int, n = s.text.length →
      ∃ u, (do return array (← (← s.leaves).mapM Atomic.upperCase) n : Res Seq) = .ok u ∧ u.WF ∧
        u.text = s.text.map Spec.upper := by
    intro n hn
    obtain ⟨bs, h1, h2, h3, h4⟩ := mapM_upper_ok s.flat (flat_wf h.sane)
    rw [flat_text] at h3
    refine ⟨array bs n, ?_, ⟨?_, h2, ?_⟩, h3⟩
    · rw [leaves_ok h.sane, bind_ok, h1]; rfl
    · intro hb; exact flat_ne_nil h.sane (h4.1 hb)
    · rw [sum_lengths h2, h3, hn]; simp
  cases s with
  | atom a =>
    obtain ⟨b, h1, h2, h3⟩ := Atomic.upperCase_ok h
    exact ⟨atom b, by simp [upperCase, h1], h2, h3⟩
  | concat l r n k => exact go n hl
  | array es n => exact go n hl

theorem mapM_upper_pieces (es : List Atomic) (h : ∀ a ∈ es, a.WF) (bs : List Atomic)
    (hb : es.mapM Atomic.upperCase = .ok bs) :
    bs.map Atomic.text = (es.map Atomic.text).map (·.map Spec.upper) := by
  induction es generalizing bs with
  | nil => simp [List.mapM_nil] at hb; subst hb; rfl
  | cons a es ih =>
    obtain ⟨b, h1, h2, h3⟩ := Atomic.upperCase_ok (h a (by simp))
    obtain ⟨cs, h4, _⟩ := mapM_upper_ok es (fun b hb => h b (List.mem_cons_of_mem _ hb))
    simp only [List.mapM_cons, h1, h4, bind_ok, pure_eq_ok, Except.ok.injEq] at hb
    subst hb
    simp only [List.map_cons, h3, ih (fun b hb => h b (List.mem_cons_of_mem _ hb)) cs h4]

theorem upperCase_pieces {s u : Seq} (h : s.Sane) (hu : s.upperCase = .ok u) :
    u.flat.map Atomic.text = (s.flat.map Atomic.text).map (·.map Spec.upper) := by
  have go : ∀ n : Int, (do return array (← (← s.leaves).mapM Atomic.upperCase) n : Res Seq) = .ok u →
      u.flat.map Atomic.text = (s.flat.map Atomic.text).map (·.map Spec.upper) := by
    intro n hn
    obtain ⟨cs, h4, _⟩ := mapM_upper_ok s.flat (flat_wf h)
    simp only [leaves_ok h, bind_ok, h4, pure_eq_ok, Except.ok.injEq] at hn
    subst hn
    exact mapM_upper_pieces _ (flat_wf h) cs h4
  cases s with
  | atom a =>
    obtain ⟨b, h1, h2, h3⟩ := Atomic.upperCase_ok (show a.WF from h)
    simp only [upperCase, h1, bind_ok, pure_eq_ok, Except.ok.injEq] at hu
    subst hu
    simp [flat, h3]
  | concat l r n k => exact go n hu
  | array es n => exact go n hu

theorem mkConcat_flat (l r : Seq) : (mkConcat l r).flat = l.flat ++ r.flat := by
  cases l <;> simp [mkConcat, concat0, flat]

/-! Construction -/

theorem mkConcat_wf {l r : Seq} (hl : l.WF) (hr : r.WF) : (mkConcat l r).WF := by
  cases l with
  | atom a => exact ⟨hl, hr, rfl⟩
  | concat a b n k => exact ⟨hl.1, ⟨hl.2.1, hr, rfl⟩, rfl⟩
  | array es n => exact ⟨hl, hr, rfl⟩

theorem mkConcat_sane {l r : Seq} (hl : l.Sane) (hr : r.Sane) : (mkConcat l r).Sane := by
  cases l with
  | atom a => exact ⟨hl, hr, rfl⟩
  | concat a b n k => exact ⟨hl.1, ⟨hl.2.1, hr, rfl⟩, rfl⟩
  | array es n => exact ⟨hl, hr, rfl⟩

theorem mkConcat_text (l r : Seq) : (mkConcat l r).text = l.text ++ r.text := by
  cases l <;> simp [mkConcat, concat0, text]

theorem mkConcat_length {l r : Seq} (hl : l.Sane) :
    (mkConcat l r).length = l.length + r.length := by
  cases l with
  | atom a => rfl
  | concat a b n k =>
    have := hl.2.2
    change a.length + (b.length + r.length) = n + r.length
    omega
  | array es n => rfl

theorem append_wf {s t : Seq} (hs : s.WF) (ht : t.WF) : (s.append t).WF := by
  unfold append; split
  · exact ht
  · split
    · exact hs
    · exact mkConcat_wf hs ht

theorem append_sane {s t : Seq} (hs : s.Sane) (ht : t.Sane) : (s.append t).Sane := by
  unfold append; split
  · exact ht
  · split
    · exact hs
    · exact mkConcat_sane hs ht

theorem append_text {s t : Seq} (ht : t.Sane) : (s.append t).text = s.text ++ t.text := by
  unfold append; split
  · simp [text, Atomic.text]
  · split
    · next h => rw [ht.text_of_length_zero (by simpa [isEmpty] using h)]; simp
    · exact mkConcat_text s t

theorem append_length {s t : Seq} (hs : s.Sane) : (s.append t).length = s.length + t.length := by
  unfold append; split
  · simp [length, Atomic.length]
  · split
    · next h => simp only [isEmpty, beq_iff_eq] at h; omega
    · exact mkConcat_length hs

theorem prepend_wf {s t : Seq} (hs : s.WF) (ht : t.WF) : (s.prepend t).WF := by
  unfold prepend; split
  · exact ht
  · split
    · exact hs
    · exact mkConcat_wf ht hs

theorem prepend_sane {s t : Seq} (hs : s.Sane) (ht : t.Sane) : (s.prepend t).Sane := by
  unfold prepend; split
  · exact ht
  · split
    · exact hs
    · exact mkConcat_sane ht hs

theorem prepend_text {s t : Seq} (ht : t.Sane) : (s.prepend t).text = t.text ++ s.text := by
  unfold prepend; split
  · simp [text, Atomic.text]
  · split
    · next h => rw [ht.text_of_length_zero (by simpa [isEmpty] using h)]; simp
    · exact mkConcat_text t s

theorem prepend_length {s t : Seq} (ht : t.Sane) : (s.prepend t).length = t.length + s.length := by
  unfold prepend; split
  · simp [length, Atomic.length]
  · split
    · next h => simp only [isEmpty, beq_iff_eq] at h; omega
    · exact mkConcat_length ht

theorem join_spec {es : List Atomic} (h : ∀ a ∈ es, a.WF) :
    (join es).WF ∧ (join es).text = es.flatMap Atomic.text := by
  match es with
  | [] => exact ⟨trivial, rfl⟩
  | [a] => exact ⟨h a (by simp), by simp [join, text]⟩
  | a :: b :: t => exact ⟨⟨by simp, h, rfl⟩, rfl⟩

theorem wrap_wf (s : JStr) : (wrap s).WF := (Atomic.wrap_spec s).1
theorem wrap_text (s : JStr) : (wrap s).text = s := (Atomic.wrap_spec s).2
theorem ch_wf (c : JChar) : (ch c).WF := Atomic.wf_ch c
theorem ch_text (c : JChar) : (ch c).text = [c] := Atomic.text_ch c
theorem empty_wf : empty.WF := trivial
theorem empty_text : empty.text = [] := rfl

theorem repeated_ok {c : JChar} {n : Int} (h : 1 ≤ n) :
    ∃ s, repeated c n = .ok s ∧ s.WF ∧ s.text = List.replicate n.toNat c := by
  obtain ⟨a, h1, h2, h3⟩ := Atomic.mkRepeated_ok (c := c) h
  exact ⟨.atom a, by simp [repeated, h1], h2, h3⟩

/-! subSequence of composites -/

/-- The slice `[i, j)` lies inside one leaf. -/
def InOneLeaf (es : List Atomic) (i j : Int) : Prop :=
  ∃ pre a post, es = pre ++ a :: post ∧ ((pre.flatMap Atomic.text).length : Int) ≤ i ∧
    j ≤ (pre.flatMap Atomic.text).length + a.text.length

theorem inOneLeaf_cons {a : Atomic} {es : List Atomic} {i j : Int} :
    InOneLeaf (a :: es) i j ↔
      (0 ≤ i ∧ j ≤ a.text.length) ∨ InOneLeaf es (i - a.text.length) (j - a.text.length) := by
  constructor
  · rintro ⟨pre, b, post, h1, h2, h3⟩
    cases pre with
    | nil =>
      simp only [List.nil_append, List.cons.injEq] at h1
      obtain ⟨rfl, rfl⟩ := h1
      left; simp only [List.flatMap_nil, List.length_nil] at h2 h3; omega
    | cons c pre =>
      simp only [List.cons_append, List.cons.injEq] at h1
      obtain ⟨rfl, rfl⟩ := h1
      right
      simp only [List.flatMap_cons, List.length_append] at h2 h3
      exact ⟨pre, b, post, rfl, by omega, by omega⟩
  · rintro (⟨h1, h2⟩ | ⟨pre, b, post, rfl, h2, h3⟩)
    · exact ⟨[], a, es, rfl, by simpa using h1, by simpa using h2⟩
    · refine ⟨a :: pre, b, post, rfl, ?_, ?_⟩ <;>
        simp only [List.flatMap_cons, List.length_append] <;> omega

theorem sub_append (s t : JStr) (i j : Nat) (h : i ≤ j) :
    Spec.sub (s ++ t) i j = Spec.sub s i (min j s.length) ++ Spec.sub t (i - s.length) (j - s.length) := by
  unfold Spec.sub
  rw [List.drop_append, List.take_append]
  congr 1
  · rw [List.take_eq_take_iff]; simp; omega
  · rw [List.length_drop, List.take_eq_take_iff]; simp; omega

theorem subLoop_spec (es : List Atomic) (h : ∀ a ∈ es, a.WF) (i j : Int) (buf : List Atomic)
    (hi : 0 ≤ i) (hij : i < j) (hj : j ≤ (es.flatMap Atomic.text).length) :
    ∃ ps p s' e', subLoop es i j buf = .ok (buf ++ ps ++ [p], s', e') ∧
      (∀ a ∈ ps, a.WF ∧ a.text ≠ []) ∧ p.WF ∧ p.text ≠ [] ∧
      ps.flatMap Atomic.text ++ p.text = Spec.sub (es.flatMap Atomic.text) i.toNat j.toNat ∧
      e' - s' = p.text.length ∧ (ps = [] ↔ InOneLeaf es i j) := by
  induction es generalizing i j buf with
  | nil => simp at hj; omega
  | cons a es ih =>
    have ha := h a (by simp)
    have hes : ∀ b ∈ es, b.WF := fun b hb => h b (List.mem_cons_of_mem _ hb)
    have hl := Atomic.length_text ha
    simp only [List.flatMap_cons, List.length_append] at hj ⊢
    unfold subLoop
    simp only
    have hsub := sub_append a.text (es.flatMap Atomic.text) i.toNat j.toNat (by omega)
    by_cases h1 : i < a.length
    · rw [if_pos h1]
      by_cases h2 : j ≤ a.length
      · rw [if_pos h2]
        obtain ⟨b, hb1, hb2, hb3⟩ := Atomic.subSequence_ok ha (i := i) (j := j) (by omega)
        have hlen : b.text.length = j.toNat - i.toNat := by
          rw [hb3, Spec.sub]; simp; omega
        refine ⟨[], b, i, j, ?_, by simp, hb2, ?_, ?_, ?_, ?_⟩
        · rw [hb1]; simp
        · intro hn; rw [hn] at hlen; simp at hlen; omega
        · rw [hsub, hb3, show min j.toNat a.text.length = j.toNat by omega,
            show j.toNat - a.text.length = 0 by omega]
          simp [Spec.sub]
        · omega
        · simp only [true_iff]
          rw [inOneLeaf_cons]; left; omega
      · rw [if_neg h2]
        obtain ⟨b, hb1, hb2, hb3⟩ := Atomic.subSequence_ok ha (i := i) (j := a.length) (by omega)
        have hlen : b.text.length = a.length.toNat - i.toNat := by
          rw [hb3, Spec.sub]; simp; omega
        have hbne : b.text ≠ [] := by intro hn; rw [hn] at hlen; simp at hlen; omega
        obtain ⟨ps, p, s', e', g1, g2, g3, g4, g5, g6, g7⟩ :=
          ih hes 0 (j - a.length) (buf ++ [b]) (by omega) (by omega) (by omega)
        refine ⟨b :: ps, p, s', e', ?_, ?_, g3, g4, ?_, g6, ?_⟩
        · rw [hb1, bind_ok, g1]; simp
        · intro x hx
          rcases List.mem_cons.1 hx with rfl | hx
          · exact ⟨hb2, hbne⟩
          · exact g2 x hx
        · rw [List.flatMap_cons, List.append_assoc, g5, hsub, hb3]
          rw [show min j.toNat a.text.length = a.length.toNat by omega,
            show i.toNat - a.text.length = 0 by omega,
            show (j - a.length).toNat = j.toNat - a.text.length by omega]
          rfl
        · constructor
          · intro hn; simp at hn
          · intro hn
            rw [inOneLeaf_cons] at hn
            rcases hn with ⟨_, hn⟩ | hn
            · omega
            · obtain ⟨pre, c, post, k1, k2, k3⟩ := hn
              omega
    · rw [if_neg h1]
      obtain ⟨ps, p, s', e', g1, g2, g3, g4, g5, g6, g7⟩ :=
        ih hes (i - a.length) (j - a.length) buf (by omega) (by omega) (by omega)
      refine ⟨ps, p, s', e', g1, g2, g3, g4, ?_, g6, ?_⟩
      · rw [g5, hsub]
        rw [show (i - a.length).toNat = i.toNat - a.text.length by omega,
            show (j - a.length).toNat = j.toNat - a.text.length by omega]
        rw [show Spec.sub a.text i.toNat (min j.toNat a.text.length) = [] by
          unfold Spec.sub; rw [List.drop_eq_nil_of_le (by omega)]; simp]
        rfl
      · rw [g7, inOneLeaf_cons, hl]
        constructor
        · exact Or.inr
        · rintro (⟨_, h3⟩ | h3)
          · omega
          · exact h3

/-- `subSequence` on any consistent rope: right text always; right length exactly when the slice is
empty, everything, or inside one leaf. -/
theorem subSequence_ok {s : Seq} (h : s.WF) {i j : Int}
    (hij : 0 ≤ i ∧ i ≤ j ∧ j ≤ s.text.length) :
    ∃ t, s.subSequence i j = .ok t ∧ t.Sane ∧ t.text = Spec.sub s.text i.toNat j.toNat ∧
      (i < j → 0 < t.length) ∧ t.length ≤ j - i ∧
      (t.length = j - i ↔
        (i = j ∨ (i = 0 ∧ j = s.text.length) ∨ InOneLeaf s.flat i j)) ∧
      (t.length = j - i → t.WF) := by
  have hl := h.length_text
  have full : Spec.sub s.text (0 : Int).toNat (s.text.length : Int).toNat = s.text := by
    simp [Spec.sub]
  cases s with
  | atom a =>
    obtain ⟨b, h1, h2, h3⟩ := Atomic.subSequence_ok (show a.WF from h) hij
    have hb : b.length = j - i := by
      rw [Atomic.length_text h2, h3, Spec.sub]
      simp only [text] at hij; simp; omega
    refine ⟨.atom b, by simp [subSequence, h1], h2, h3, ?_, ?_, ?_, fun _ => h2⟩
    · intro hlt; change 0 < b.length; omega
    · change b.length ≤ _; omega
    · constructor
      · intro _; right; right
        exact ⟨[], a, [], rfl, by simpa using hij.1, by
          have := hij.2.2; simp only [text] at this; simpa using this⟩
      · intro _; exact hb
  | concat l r n k => exact go h hij hl full (fun i j => rfl)
  | array es n => exact go h hij hl full (fun i j => rfl)
where
  go {s : Seq} (h : s.WF) {i j : Int} (hij : 0 ≤ i ∧ i ≤ j ∧ j ≤ s.text.length)
      (hl : s.length = s.text.length)
      (full : Spec.sub s.text (0 : Int).toNat (s.text.length : Int).toNat = s.text)
      (heq : ∀ i j, s.subSequence i j = (do
        let length := s.length
        checkPositionIndexes i j length
        if i = j then return empty
        if i = 0 ∧ j = length then return s
        let (buffer, start, stop) ← subLoop (← s.leaves) i j []
        match buffer with
        | [] => .error .assertion
        | [a] => return atom a
        | buffer => return array buffer (stop - start))) :
      ∃ t, s.subSequence i j = .ok t ∧ t.Sane ∧ t.text = Spec.sub s.text i.toNat j.toNat ∧
      (i < j → 0 < t.length) ∧ t.length ≤ j - i ∧
      (t.length = j - i ↔
        (i = j ∨ (i = 0 ∧ j = s.text.length) ∨ InOneLeaf s.flat i j)) ∧
      (t.length = j - i → t.WF) := by
    rw [heq]
    simp only [hl, checkPositionIndexes_ok hij, bind_ok]
    by_cases h1 : i = j
    · subst h1
      refine ⟨empty, by simp, trivial, by simp [Spec.sub, empty_text], ?_, ?_, ?_, ?_⟩
      · intro h; omega
      · simp [empty, length, Atomic.length]
      · simp [empty, length, Atomic.length]
      · intro _; exact trivial
    rw [if_neg h1]
    by_cases h2 : i = 0 ∧ j = (s.text.length : Int)
    · rw [if_pos h2]
      obtain ⟨rfl, rfl⟩ := h2
      refine ⟨s, rfl, h.sane, full.symm, ?_, ?_, ?_, fun _ => h⟩
      · intro h; omega
      · omega
      · constructor
        · intro _; right; left; exact ⟨rfl, rfl⟩
        · intro _; omega
    · rw [if_neg h2, leaves_ok h.sane, bind_ok]
      obtain ⟨ps, p, s', e', g1, g2, g3, g4, g5, g6, g7⟩ :=
        subLoop_spec s.flat (flat_wf h.sane) i j [] hij.1 (by omega) (by rw [flat_text]; exact hij.2.2)
      rw [flat_text] at g5
      have hsl : (Spec.sub s.text i.toNat j.toNat).length = j.toNat - i.toNat := by
        unfold Spec.sub; simp; omega
      have hpl : 0 < p.text.length := List.length_pos_iff.2 g4
      rw [g1, bind_ok]
      simp only [List.nil_append]
      match ps, g2, g5, g7 with
      | [], g2, g5, g7 =>
        simp only [List.flatMap_nil, List.nil_append] at g5
        have hpl2 : p.length = j - i := by
          rw [Atomic.length_text g3, g5, hsl]; omega
        refine ⟨atom p, rfl, g3, g5, ?_, ?_, ?_, fun _ => g3⟩
        · intro _; change 0 < p.length; omega
        · change p.length ≤ _; omega
        · constructor
          · intro _; right; right; exact g7.1 rfl
          · intro _; exact hpl2
      | q :: qs, g2, g5, g7 =>
        have hq : 0 < q.text.length := List.length_pos_iff.2 (g2 q (by simp)).2
        have hlen : (q.text.length + (qs.flatMap Atomic.text).length) + p.text.length =
            j.toNat - i.toNat := by
          rw [← hsl, ← g5]; simp [Nat.add_assoc]
        have hres : (match q :: (qs ++ [p]) with
            | [] => (Except.error .assertion : Res Seq)
            | [a] => pure (atom a)
            | buffer => pure (array buffer (e' - s'))) = .ok (array (q :: (qs ++ [p])) (e' - s')) := by
          cases qs <;> rfl
        refine ⟨array (q :: (qs ++ [p])) (e' - s'), ?_, ?_, ?_, ?_, ?_, ?_, ?_⟩
        · exact hres
        · refine ⟨by simp, ?_, by omega, by omega⟩
          intro x hx
          rcases List.mem_cons.1 hx with rfl | hx
          · exact (g2 x (by simp)).1
          · rcases List.mem_append.1 hx with hx | hx
            · exact (g2 x (List.mem_cons_of_mem _ hx)).1
            · rw [List.mem_singleton] at hx; subst hx; exact g3
        · simp only [text]
          rw [← g5]; simp
        · intro _; change 0 < e' - s'; omega
        · change e' - s' ≤ _; omega
        · change e' - s' = _ ↔ _
          constructor
          · intro _; omega
          · rintro (h3 | h3 | h3)
            · exact absurd h3 h1
            · exact absurd h3 h2
            · have := g7.2 h3; simp at this
        · intro h3
          change e' - s' = _ at h3
          omega

theorem subSequence_err {s : Seq} (h : s.WF) {i j : Int}
    (hij : ¬ (0 ≤ i ∧ i ≤ j ∧ j ≤ s.text.length)) : ∃ e, s.subSequence i j = .error e := by
  have hl := h.length_text
  cases s with
  | atom a =>
    obtain ⟨e, he⟩ := Atomic.subSequence_err (show a.WF from h) hij
    exact ⟨e, by simp [subSequence, he]⟩
  | concat l r n k =>
    exact ⟨.indexOutOfBounds, by simp only [subSequence, hl, checkPositionIndexes_err hij]; rfl⟩
  | array es n =>
    exact ⟨.indexOutOfBounds, by simp only [subSequence, hl, checkPositionIndexes_err hij]; rfl⟩

end Seq
end FastPrintf
