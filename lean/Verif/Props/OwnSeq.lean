/-
Ropes over leaves of the user's own classes, and over objects that are no leaves at all.
-/
import Verif.Proofs.OwnPrint

namespace FastPrintf
open Own

variable {α : Type}

/-- A history of rope operations over faithful leaves behaves in every observation like the string. -/
theorem C88_rope {ops : LeafOps α} {Good : α → Prop} {text : α → JStr} (F : Faithful ops Good text)
    (h : Expr α) (hg : h.AllGood Good) :
    ∃ r, h.eval ops = .ok r ∧ Agrees ops r (h.pieces text).flatten := by
  obtain ⟨r, r1, r2, r3⟩ := Rope.eval_spec F h hg
  refine ⟨r, r1, ?_⟩
  rw [← Rope.pieces_text r3]
  exact r2.agrees F

/-- A slice has the right characters; the length it reports is that of the part taken from the last piece it
reaches, unless it is the whole. -/
theorem C88_slice {ops : LeafOps α} {Good : α → Prop} {text : α → JStr} (F : Faithful ops Good text)
    (h : Expr α) (hg : h.AllGood Good) {r : Rope α} (hr : h.eval ops = .ok r) :
    (∀ i j : Nat, i ≤ j → j ≤ (h.pieces text).flatten.length →
      ∃ t, r.subSequence ops i j = .ok t ∧
        (∀ sb, t.appendToSB ops sb = .ok (sb ++ Spec.sub (h.pieces text).flatten i j)) ∧
        t.length ops = sliceReports (h.pieces text) i j) ∧
    ∀ i j : Int, ¬ (0 ≤ i ∧ i ≤ j ∧ j ≤ (h.pieces text).flatten.length) →
      ∃ e, r.subSequence ops i j = .error e ∧ ((∀ a, r ≠ .atom a) → e = .indexOutOfBounds) := by
  obtain ⟨r', r1, r2, r3⟩ := Rope.eval_spec F h hg
  rw [hr] at r1; cases r1
  have ht := Rope.pieces_text r3
  refine ⟨fun i j hij hj => ?_, fun i j hij => Rope.subSequence_err F r2 i j (by rw [ht]; exact hij)⟩
  obtain ⟨t, t1, t2, t3, t4⟩ := Rope.subSequence_ok F r2 i j hij (by rw [ht]; exact hj)
  refine ⟨t, t1, fun sb => ?_, by rw [t4, sliceReports_congr r3]⟩
  rw [t2.appendToSB F, t3, ht]

/-- What `%s` and `%S` print for it. -/
theorem C88_print {ops : LeafOps α} {Good : α → Prop} {text : α → JStr} (F : Faithful ops Good text)
    (h : Expr α) (hg : h.AllGood Good) {r : Rope α} (hr : h.eval ops = .ok r) (up : Bool) (ctx : FormatContext)
    (p : Option Nat) (hp : ctx.precision = match p with | some p => (p : Int) | none => UNSET) (sb : JStr) :
    Rope.printS ops ctx up r sb = .ok (sb ++
      (blankFill ctx.flags.leftJustify (ctx.width.toNat - shownLength (h.pieces text) p)
        (shownText (h.pieces text) p)).map (fun c => if up then Spec.upper c else c)) := by
  obtain ⟨r', r1, r2, r3⟩ := Rope.eval_spec F h hg
  rw [hr] at r1; cases r1
  have hpo : SeqFormatter.precOf ctx = p := by
    unfold SeqFormatter.precOf
    cases p with
    | none => simp [hp]
    | some p =>
      have e : UNSET = -1 := rfl
      simp only at hp
      rw [if_neg (by omega), hp]; simp
  have hpk : SeqFormatter.PrecOK ctx := by
    cases p with
    | none => exact .inl hp
    | some p => exact .inr (by simp only at hp; omega)
  rw [Rope.printS_spec F ctx hpk up r2 r3, hpo]

/-- A composite that contains an object which is neither a leaf nor a composite: the length is the sum, and what lies
before that object can be read and sliced; everything that gets as far as the object throws
`ClassCastException`. -/
theorem C88_other {ops : LeafOps α} {Good : α → Prop} {text : α → JStr} (F : Faithful ops Good text)
    {r : Rope α} (hm : Mixed ops r) (hc : ∀ n k, r ≠ .other n k)
    (hg : ∀ a ∈ r.upToOther.seen, Good a) (hf : r.upToOther.fault ≠ none) :
    let before := (r.upToOther.seen.map text).flatten
    r.length ops = r.total ops ∧
    (∀ (i : Nat) (c : JChar), (i : Int) < r.length ops → before[i]? = some c → r.charAt ops i = .ok c) ∧
    (∀ i : Nat, before.length ≤ i → (i : Int) < r.length ops → r.charAt ops i = .error .classCast) ∧
    (∀ c, c ∈ before → r.indexOf ops c = .ok (Spec.firstIndex before c)) ∧
    (∀ c, c ∉ before → r.indexOf ops c = .error .classCast) ∧
    (∀ i j : Nat, i < j → j ≤ before.length → (j : Int) < r.length ops →
      ∃ t, r.subSequence ops i j = .ok t ∧ ∀ sb, t.appendToSB ops sb = .ok (sb ++ Spec.sub before i j)) ∧
    (∀ i j : Nat, i < j → before.length < j → (j : Int) ≤ r.length ops → ¬ (i = 0 ∧ (j : Int) = r.length ops) →
      r.subSequence ops i j = .error .classCast) ∧
    r.toStr ops = .error .classCast ∧ (∀ sb, r.appendToSB ops sb = .error .classCast) ∧
    r.appendToCalls ops = .error .classCast ∧ r.upperCase ops = .error .classCast := by
  intro before
  have hb : before = r.upToOther.seen.flatMap text := by rw [List.flatMap_def]
  have hfault : r.upToOther.fault = some .classCast := (upTo_fault r).resolve_left hf
  have hl := Rope.leaves_eq r hm.full
  have hlf : r.leaves.fault = some .classCast := by rw [hl]; exact hfault
  have hls : r.leaves.seen = r.upToOther.seen := by rw [hl]
  have hat : ∀ a, r ≠ .atom a := fun a h => by subst h; exact hf rfl
  have hsb : ∀ sb, r.appendToSB ops sb = .error .classCast := by
    intro sb
    have := Rope.appendLeavesSB_eq F (some .classCast) _ hg sb
    cases r with
    | atom a => exact absurd rfl (hat a)
    | concat l r n k => rw [Rope.appendToSB, hlf, hls, this]; rfl; simp
    | array es n => exact absurd rfl hf
    | other n k => exact (hc n k rfl).elim
  rw [hb]
  refine ⟨hm.summed.total, ?_, ?_, ?_, ?_, ?_, ?_, ?_, hsb, ?_, ?_⟩
  · intro i c hi h
    have := Rope.charAtLoop_ok F (some .classCast) _ hg i c h
    cases r with
    | atom a => exact absurd rfl (hat a)
    | concat l r n k => rw [Rope.charAt, checkPositionIndex_ok ⟨by omega, hi⟩, bind_ok, hlf, hls, this]; simp
    | array es n => exact absurd rfl hf
    | other n k => exact (hc n k rfl).elim
  · intro i h hi
    have := Rope.charAtLoop_past F (some .classCast) _ hg i h
    cases r with
    | atom a => exact absurd rfl (hat a)
    | concat l r n k => rw [Rope.charAt, checkPositionIndex_ok ⟨by omega, hi⟩, bind_ok, hlf, hls, this]; rfl; simp
    | array es n => exact absurd rfl hf
    | other n k => exact (hc n k rfl).elim
  · intro c h
    have := Rope.indexOfLoop_eq F (some .classCast) _ hg c 0
    rw [if_neg (by rw [Atomic.firstIndex_eq_neg]; exact not_not.2 h), Int.add_zero] at this
    cases r with
    | atom a => exact absurd rfl (hat a)
    | concat l r n k => rw [Rope.indexOf, hlf, hls, this]; simp
    | array es n => exact absurd rfl hf
    | other n k => exact (hc n k rfl).elim
  · intro c h
    have := Rope.indexOfLoop_eq F (some .classCast) _ hg c 0
    rw [if_pos (by rw [Atomic.firstIndex_eq_neg]; exact h)] at this
    cases r with
    | atom a => exact absurd rfl (hat a)
    | concat l r n k => rw [Rope.indexOf, hlf, hls, this]; rfl; simp
    | array es n => exact absurd rfl hf
    | other n k => exact (hc n k rfl).elim
  · intro i j hij hj hlen
    obtain ⟨t, t1, t2, t3, _⟩ := Rope.subSequence_proper F hm.full hat hg i j hij hj (by omega) (by omega)
    exact ⟨t, t1, fun sb => by rw [t2.appendToSB F, t3]⟩
  · intro i j hij hj hlen hne
    rw [subSequence_composite ops hat, checkPositionIndexes_ok ⟨by omega, by omega, hlen⟩, bind_ok,
      if_neg (by omega), if_neg (by omega), hlf, hls, Rope.subLoop_past F .classCast _ hg i j [] hij hj]
    rfl
  · cases r with
    | atom a => exact absurd rfl (hat a)
    | concat l r n k => exact hsb []
    | array es n => exact absurd rfl hf
    | other n k => exact (hc n k rfl).elim
  · have := Rope.leavesCalls_some F .classCast _ hg
    cases r with
    | atom a => exact absurd rfl (hat a)
    | concat l r n k => rw [Rope.appendToCalls, hlf, hls, this]; simp
    | array es n => exact absurd rfl hf
    | other n k => exact (hc n k rfl).elim
  · obtain ⟨bs, b1, _, _⟩ := Rope.mapM_upper F _ hg
    cases r with
    | atom a => exact absurd rfl (hat a)
    | concat l r n k => rw [Rope.upperCase, hlf, hls, b1]; rfl; simp
    | array es n => exact absurd rfl hf
    | other n k => exact (hc n k rfl).elim

/-- The library's own leaves are faithful, and over them this is the model of the rest of the development. -/
theorem C88_library :
    Faithful libraryLeaves Atomic.WF Atomic.text ∧
    (∀ l r : Seq, ofSeq (l.append r) = (ofSeq l).append libraryLeaves (ofSeq r) ∧
      ofSeq (l.prepend r) = (ofSeq l).prepend libraryLeaves (ofSeq r) ∧
      ofSeq (Seq.mkConcat l r) = Rope.mkConcat libraryLeaves (ofSeq l) (ofSeq r)) ∧
    (∀ es, ofSeq (Seq.join es) = Rope.join libraryLeaves es) ∧
    ∀ s : Seq, s.Sane →
      (ofSeq s).length libraryLeaves = s.length ∧ (ofSeq s).elementCount = s.elementCount ∧
      (ofSeq s).isEmpty libraryLeaves = s.isEmpty ∧
      (∀ i, (ofSeq s).charAt libraryLeaves i = s.charAt i) ∧
      (∀ i j, (ofSeq s).subSequence libraryLeaves i j = (s.subSequence i j).map ofSeq) ∧
      (ofSeq s).upperCase libraryLeaves = s.upperCase.map ofSeq ∧
      (∀ c, (ofSeq s).indexOf libraryLeaves c = s.indexOf c) ∧
      (∀ c, (ofSeq s).startsWith libraryLeaves c = s.startsWith c) ∧
      (∀ sb, (ofSeq s).appendToSB libraryLeaves sb = s.appendToSB sb) ∧
      (ofSeq s).appendToCalls libraryLeaves = s.appendToCalls ∧
      (ofSeq s).toStr libraryLeaves = s.toStr ∧
      ∀ (ctx : FormatContext) (v : Traits), v.asSeq = .ok s →
        Rope.formatS libraryLeaves ctx (ofSeq s) = (SeqFormatter.s ctx v).map ofSeq :=
  ⟨library_faithful, fun l r => ⟨ofSeq_append l r, ofSeq_prepend l r, ofSeq_mkConcat l r⟩, ofSeq_join,
    fun s h => ⟨ofSeq_length s, ofSeq_count s, ofSeq_isEmpty s, ofSeq_charAt h, ofSeq_subSequence h, ofSeq_upperCase h,
      ofSeq_indexOf h, ofSeq_startsWith h, ofSeq_appendToSB h, ofSeq_appendToCalls h, ofSeq_toStr h,
      fun _ _ hv => ofSeq_formatS hv h⟩⟩

/-! The claims are not empty: a class of leaves that each hold their text. -/

/-- Leaves that hold their text. -/
def textLeaves : LeafOps JStr where
  length t := t.length
  isEmpty t := t.isEmpty
  charAt t i := if 0 ≤ i ∧ i < t.length then .ok (t[i.toNat]?.getD 0) else .error .indexOutOfBounds
  subSequence t i j := if 0 ≤ i ∧ i ≤ j ∧ j ≤ t.length then .ok (Spec.sub t i.toNat j.toNat) else .error .indexOutOfBounds
  upperCase t := .ok (t.map Spec.upper)
  indexOf t c := .ok (Spec.firstIndex t c)
  appendToSB t sb := .ok (sb ++ t)
  appendToCalls t := .ok [t]
  toStr t := .ok t
  repeated c n := List.replicate n c
  empty := []
  isEmptySeq _ := false

theorem textLeaves_faithful : Faithful textLeaves (fun _ => True) id where
  length _ _ := rfl
  isEmpty t _ := by simp [textLeaves]
  charAt t _ i c h := by
    obtain ⟨h1, _⟩ := List.getElem?_eq_some_iff.1 h
    have h1 : i < t.length := h1
    simp only [id] at h
    simp only [textLeaves]
    rw [if_pos (by omega), Int.toNat_natCast, h]; rfl
  charAt_out t _ i h := by
    simp only [id] at h
    simp only [textLeaves]; rw [if_neg (by omega)]
  sub t _ i j hij hj := ⟨_, by
    simp only [id] at hj
    simp only [textLeaves]; rw [if_pos (by omega)], trivial, by simp⟩
  sub_out t _ i j h := ⟨.indexOutOfBounds, by
    simp only [id] at h
    simp only [textLeaves]; rw [if_neg h]⟩
  upper t _ := ⟨_, rfl, trivial, rfl⟩
  indexOf _ _ _ := rfl
  toBuilder _ _ _ := rfl
  toAppendable t _ := ⟨[t], rfl, by simp⟩
  toStr _ _ := rfl
  repeated _ _ _ := ⟨trivial, rfl⟩
  empty := ⟨trivial, rfl⟩
  emptySeq _ _ h := by cases h

/-- Three leaves, the middle one empty, in upper case. -/
def sampleHistory : Expr JStr :=
  .upper (.append (.concat (.leaf (js! "ab")) (.leaf [])) (.join [js! "cde", js! "f"]))

example : sampleHistory.AllGood (fun _ => True) := by simp [sampleHistory, Expr.AllGood]
example : (sampleHistory.pieces id).flatten = js! "ABCDEF" := by decide
example : (do (← sampleHistory.eval textLeaves).toStr textLeaves) = .ok (js! "ABCDEF") := by decide
example : (do (← sampleHistory.eval textLeaves).charAt textLeaves 3) = .ok (ch! 'D') := by decide
example : (do return (← (← sampleHistory.eval textLeaves).subSequence textLeaves 1 4).length textLeaves) = .ok 2 := by decide
example : sliceReports (sampleHistory.pieces id) 1 4 = 2 := by decide
example : (do Rope.printS textLeaves ⟨{ leftJustify := true }, 6, 4, none⟩ false (← sampleHistory.eval textLeaves) []) =
    .ok (js! "ABCD    ") := by decide

/-- Two characters, then an object of length three that is no leaf. -/
def sampleMixed : Rope JStr := Rope.mkConcat textLeaves (.atom (js! "ab")) (.other 3 1)

example : Mixed textLeaves sampleMixed := .concat (.leaf _) (.other 3 1)
example : sampleMixed.upToOther.fault ≠ none ∧ sampleMixed.length textLeaves = 5 := by
  constructor
  · intro h; cases h
  · decide
example : sampleMixed.charAt textLeaves 1 = .ok (ch! 'b') ∧ sampleMixed.charAt textLeaves 2 = .error .classCast ∧
    sampleMixed.toStr textLeaves = .error .classCast ∧
    Rope.printS textLeaves ⟨{}, 4, 1, none⟩ false sampleMixed [] = .ok (js! "   a") := by decide

/-- Leaves that report one character too many. -/
def boastfulLeaves : LeafOps JStr := { textLeaves with length := fun t => t.length + 1 }

/-- For them the claims fail: the character after the first leaf is not found. -/
example : (Rope.mkConcat boastfulLeaves (.atom (js! "ab")) (.atom (js! "cd"))).charAt boastfulLeaves 2 =
    .error .indexOutOfBounds := by decide

end FastPrintf
