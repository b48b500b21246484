/-
Composites of the user's own classes: the lemmas.
-/
import Verif.Spec.OwnComposite
import Verif.Proofs.OwnPrint

namespace FastPrintf.Own

variable {α : Type}

namespace Compound

theorem flats_append (x y : List (Compound α)) : flats (x ++ y) = flats x ++ flats y := by
  induction x with
  | nil => rfl
  | cons t x ih => rw [List.cons_append, flats, ih, flats, List.append_assoc]

theorem fulls_append {x y : List (Compound α)} (hx : Fulls x) (hy : Fulls y) : Fulls (x ++ y) := by
  induction x with
  | nil => exact hy
  | cons t x ih => exact ⟨hx.1, ih hx.2⟩

theorem leafCounts_append (x y : List (Compound α)) : leafCounts (x ++ y) = leafCounts x + leafCounts y := by
  induction x with
  | nil => simp [leafCounts]
  | cons t x ih => rw [List.cons_append, leafCounts, ih, leafCounts]; omega

theorem flats_atoms (l : List α) : flats (l.map atom) = l := by
  induction l with
  | nil => rfl
  | cons a l ih => rw [List.map_cons, flats, ih]; rfl

theorem fulls_atoms (l : List α) : Fulls (l.map atom) := by
  induction l with
  | nil => trivial
  | cons a l ih => exact ⟨trivial, ih⟩

theorem leafCounts_atoms (l : List α) : leafCounts (l.map atom) = l.length := by
  induction l with
  | nil => rfl
  | cons a l ih => rw [List.map_cons, leafCounts, ih, leafCount, List.length_cons]; omega

theorem unfoldLoop_spec : ∀ (t : Compound α), t.Full → ∀ st : List (Compound α), Fulls st →
    ∃ a st', unfoldLoop t st = .ok (a, st') ∧ t.flat ++ flats st = a :: flats st' ∧ Fulls st' ∧
      leafCounts st' + 1 = t.leafCount + leafCounts st
  | .atom a, _, st, hst => ⟨a, st, rfl, rfl, hst, by rw [leafCount]; omega⟩
  | .concat l r _ _, ht, st, hst => by
    obtain ⟨a, st', h1, h2, h3, h4⟩ := unfoldLoop_spec l ht.1 (r :: st) ⟨ht.2, hst⟩
    refine ⟨a, st', h1, ?_, h3, ?_⟩
    · rw [← h2, flat, flats, List.append_assoc]
    · rw [h4, leafCount, leafCounts]; omega
  | .array [] _, ht, _, _ => absurd rfl ht
  | .array (a :: rest) _, _, st, hst =>
    ⟨a, rest.map atom ++ st, rfl, by rw [flats_append, flats_atoms]; rfl, fulls_append (fulls_atoms _) hst, by
      rw [leafCounts_append, leafCounts_atoms, leafCount, List.length_cons]; omega⟩
  | .own _ first rest, ht, st, hst => by
    obtain ⟨a, st', h1, h2, h3, h4⟩ := unfoldLoop_spec first ht.1 (rest ++ st) (fulls_append ht.2 hst)
    refine ⟨a, st', h1, ?_, h3, ?_⟩
    · rw [← h2, flat, flats_append, List.append_assoc]
    · rw [h4, leafCount, leafCounts_append]; omega

theorem iterate_eq (fuel : Nat) (st : List (Compound α)) (hst : Fulls st) (hf : leafCounts st ≤ fuel) :
    iterate fuel st = ⟨flats st, none⟩ := by
  induction fuel generalizing st with
  | zero =>
    match st, hst with
    | [], _ => rfl
    | t :: st, hst =>
      obtain ⟨a, st', _, _, _, h4⟩ := unfoldLoop_spec t hst.1 st hst.2
      rw [leafCounts] at hf; omega
  | succ fuel ih =>
    match st, hst with
    | [], _ => rfl
    | t :: st, hst =>
      obtain ⟨a, st', h1, h2, h3, h4⟩ := unfoldLoop_spec t hst.1 st hst.2
      rw [leafCounts] at hf
      rw [iterate, h1]
      simp only
      rw [ih st' h3 (by omega), flats, h2]

theorem leaves_concat {l r : Compound α} (n k : Int) (hl : l.Full) (hr : r.Full) :
    (concat l r n k).leaves = ⟨l.flat ++ r.flat, none⟩ := by
  have hf : Fulls [concat l r n k] := ⟨⟨hl, hr⟩, trivial⟩
  rw [leaves, iterate_eq _ _ hf (by simp [leafCounts])]
  simp [flats, flat]

/-- The own composites in it are honest, the joined sequences not empty, the numbers of elements not negative. -/
def OK (ops : LeafOps α) : Compound α → Prop
  | .atom _ => True
  | .concat l r _ k => l.OK ops ∧ r.OK ops ∧ 0 ≤ k
  | .array es _ => es ≠ []
  | .own g first rest => g.Honest ops first rest

/-- Every own composite replaced by a joined sequence of its leaves. -/
def strip : Compound α → Rope α
  | .atom a => .atom a
  | .concat l r n _ => .concat l.strip r.strip n (l.strip.elementCount + r.strip.elementCount)
  | .array es n => .array es n
  | .own g _ _ => .array g.walk.seen g.length

variable {ops : LeafOps α} {Good : α → Prop} {txt : α → JStr}

theorem OK.count {t : Compound α} (h : t.OK ops) : 0 ≤ t.elementCount := by
  cases t with
  | atom a => simp [elementCount]
  | concat l r n k => exact h.2.2
  | array es n => simp [elementCount]
  | own g f rs => exact h.2.2.2.1

theorem OK.full : ∀ {t : Compound α}, t.OK ops → t.Full
  | .atom _, _ => trivial
  | .concat _ _ _ _, h => ⟨OK.full h.1, OK.full h.2.1⟩
  | .array _ _, h => h
  | .own _ _ _, h => h.2.2.2.2

theorem OK.flat : ∀ {t : Compound α}, t.OK ops → t.strip.flat = t.flat
  | .atom _, _ => rfl
  | .concat _ _ _ _, h => by rw [strip, Rope.flat, OK.flat h.1, OK.flat h.2.1, Compound.flat]
  | .array _ _, _ => rfl
  | .own _ _ _, h => h.1

theorem OK.leaves {t : Compound α} (h : t.OK ops) : t.leaves = ⟨t.strip.flat, none⟩ := by
  cases t with
  | atom a => rfl
  | concat l r n k => rw [leaves_concat n k h.1.full h.2.1.full, OK.flat h]; rfl
  | array es n => rfl
  | own g f rs => rw [Compound.leaves, strip, Rope.flat, ← h.2.1]

theorem strip_length (t : Compound α) : t.strip.length ops = t.length ops := by cases t <;> rfl

theorem strip_isEmpty (t : Compound α) : t.strip.isEmpty ops = t.isEmpty ops := by cases t <;> rfl

theorem strip_concat0 (l r : Compound α) : (concat0 ops l r).strip = Rope.concat0 ops l.strip r.strip := by
  rw [concat0, strip, Rope.concat0, strip_length, strip_length]

theorem strip_mkConcat (l r : Compound α) : (mkConcat ops l r).strip = Rope.mkConcat ops l.strip r.strip := by
  cases l with
  | concat ll lr n k => rw [mkConcat, strip_concat0, strip_concat0]; rfl
  | atom a => exact strip_concat0 _ _
  | array es n => exact strip_concat0 _ _
  | own g f rs => exact strip_concat0 _ _

theorem OK.concat0 {l r : Compound α} (hl : l.OK ops) (hr : r.OK ops) : (Compound.concat0 ops l r).OK ops :=
  ⟨hl, hr, by have := hl.count; have := hr.count; omega⟩

theorem OK.mkConcat {l r : Compound α} (hl : l.OK ops) (hr : r.OK ops) : (Compound.mkConcat ops l r).OK ops := by
  cases l with
  | concat ll lr n k => exact OK.concat0 hl.1 (OK.concat0 hl.2.1 hr)
  | atom a => exact OK.concat0 hl hr
  | array es n => exact OK.concat0 hl hr
  | own g f rs => exact OK.concat0 hl hr

theorem strip_append (l r : Compound α) : (l.append ops r).strip = l.strip.append ops r.strip := by
  have key : (if r.isEmpty ops then l else Compound.mkConcat ops l r).strip =
      if r.strip.isEmpty ops then l.strip else Rope.mkConcat ops l.strip r.strip := by
    rw [strip_isEmpty, ← strip_mkConcat]; split <;> rfl
  cases l with
  | atom a =>
    rw [append, strip, Rope.append]
    by_cases h : ops.isEmptySeq a = true
    · rw [if_pos h, if_pos h]
    · rw [if_neg h, if_neg h]; exact key
  | concat ll lr n k => exact key
  | array es n => exact key
  | own g f rs => exact key

theorem strip_prepend (l r : Compound α) : (l.prepend ops r).strip = l.strip.prepend ops r.strip := by
  have key : (if r.isEmpty ops then l else Compound.mkConcat ops r l).strip =
      if r.strip.isEmpty ops then l.strip else Rope.mkConcat ops r.strip l.strip := by
    rw [strip_isEmpty, ← strip_mkConcat]; split <;> rfl
  cases l with
  | atom a =>
    rw [prepend, strip, Rope.prepend]
    by_cases h : ops.isEmptySeq a = true
    · rw [if_pos h, if_pos h]
    · rw [if_neg h, if_neg h]; exact key
  | concat ll lr n k => exact key
  | array es n => exact key
  | own g f rs => exact key

theorem OK.append {l r : Compound α} (hl : l.OK ops) (hr : r.OK ops) : (l.append ops r).OK ops := by
  have key : (if r.isEmpty ops then l else Compound.mkConcat ops l r).OK ops := by
    split
    · exact hl
    · exact OK.mkConcat hl hr
  cases l with
  | atom a =>
    rw [Compound.append]
    split
    · exact hr
    · exact key
  | concat ll lr n k => exact key
  | array es n => exact key
  | own g f rs => exact key

theorem OK.prepend {l r : Compound α} (hl : l.OK ops) (hr : r.OK ops) : (l.prepend ops r).OK ops := by
  have key : (if r.isEmpty ops then l else Compound.mkConcat ops r l).OK ops := by
    split
    · exact hl
    · exact OK.mkConcat hr hl
  cases l with
  | atom a =>
    rw [Compound.prepend]
    split
    · exact hr
    · exact key
  | concat ll lr n k => exact key
  | array es n => exact key
  | own g f rs => exact key

theorem strip_join (es : List α) : (join ops es).strip = Rope.join ops es := by
  match es with
  | [] => rfl
  | [a] => rfl
  | a :: b :: es => rfl

theorem OK.join (es : List α) : (Compound.join ops es).OK ops := by
  match es with
  | [] => trivial
  | [a] => trivial
  | a :: b :: es => exact fun h => by cases h

theorem OK.charAt {t : Compound α} (h : t.OK ops) (hs : t.strip.Sane Good) (i : Int) :
    t.charAt ops i = t.strip.charAt ops i := by
  have h1 := h.leaves
  have h2 := hs.leaves
  cases t with
  | atom a => rfl
  | concat l r n k => rw [strip, Rope.charAt, ← strip, h2, Compound.charAt, h1, strip_length] <;> simp
  | array es n => rfl
  | own g f rs => simp only [strip, Rope.charAt, Compound.charAt, Compound.length, Rope.length, h1, Rope.leaves, Rope.flat]

theorem OK.indexOf {t : Compound α} (h : t.OK ops) (hs : t.strip.Sane Good) (c : JChar) :
    t.indexOf ops c = t.strip.indexOf ops c := by
  have h1 := h.leaves
  have h2 := hs.leaves
  cases t with
  | atom a => rfl
  | concat l r n k => rw [strip, Rope.indexOf, ← strip, h2, Compound.indexOf, h1] <;> simp
  | array es n => rfl
  | own g f rs => simp only [strip, Rope.indexOf, Compound.indexOf, h1, Rope.leaves, Rope.flat]

theorem OK.appendToSB {t : Compound α} (h : t.OK ops) (hs : t.strip.Sane Good) (sb : JStr) :
    t.appendToSB ops sb = t.strip.appendToSB ops sb := by
  have h1 := h.leaves
  have h2 := hs.leaves
  cases t with
  | atom a => rfl
  | concat l r n k => rw [strip, Rope.appendToSB, ← strip, h2, Compound.appendToSB, h1] <;> simp
  | array es n => rfl
  | own g f rs => simp only [strip, Rope.appendToSB, Compound.appendToSB, h1, Rope.leaves, Rope.flat]

theorem OK.appendToCalls {t : Compound α} (h : t.OK ops) (hs : t.strip.Sane Good) :
    t.appendToCalls ops = t.strip.appendToCalls ops := by
  have h1 := h.leaves
  have h2 := hs.leaves
  cases t with
  | atom a => rfl
  | concat l r n k => rw [strip, Rope.appendToCalls, ← strip, h2, Compound.appendToCalls, h1] <;> simp
  | array es n => rfl
  | own g f rs => simp only [strip, Rope.appendToCalls, Compound.appendToCalls, h1, Rope.leaves, Rope.flat]

theorem OK.startsWith {t : Compound α} (h : t.OK ops) (hs : t.strip.Sane Good) (c : JChar) :
    t.startsWith ops c = t.strip.startsWith ops c := by
  rw [Compound.startsWith, Rope.startsWith, strip_length, h.charAt hs]

theorem OK.toStr {t : Compound α} (h : t.OK ops) (hs : t.strip.Sane Good) (ho : ∀ g f rs, t ≠ .own g f rs) :
    t.toStr ops = t.strip.toStr ops := by
  cases t with
  | atom a => rfl
  | concat l r n k => exact h.appendToSB hs []
  | array es n => rfl
  | own g f rs => exact absurd rfl (ho g f rs)

theorem OK.upperCase {t : Compound α} (h : t.OK ops) (hs : t.strip.Sane Good) :
    (t.upperCase ops).map strip = t.strip.upperCase ops := by
  have h1 := h.leaves
  have h2 := hs.leaves
  have h3 := h.count
  have key : ∀ (x : Res (List α)) (n : Int),
      (do let es ← x; Rope.atEnd none (.ok (Compound.array es n)) : Res (Compound α)).map strip =
        (do let es ← x; Rope.atEnd none (.ok (Rope.array es n)) : Res (Rope α)) := by
    intro x n; cases x <;> rfl
  cases t with
  | atom a => rw [Compound.upperCase, strip, Rope.upperCase]; cases ops.upperCase a <;> rfl
  | concat l r n k =>
    rw [strip, Rope.upperCase, ← strip, h2, Compound.upperCase, h1, if_neg (by omega), strip_length]
    · exact key _ _
    all_goals simp
  | array es n => rw [Compound.upperCase, if_neg (by omega)]; exact key _ _; simp
  | own g f rs =>
    rw [Compound.upperCase, h1, if_neg (by omega)]
    · exact key _ _
    · simp

theorem subSequence_own (t : Compound α) (ht : ∀ a, t ≠ atom a) (i j : Int) : t.subSequence ops i j = (do
    checkPositionIndexes i j (t.length ops)
    if i = j then return atom ops.empty
    if i = 0 ∧ j = t.length ops then return t
    let (buffer, start, stop) ← Rope.subLoop ops t.leaves.fault t.leaves.seen i j []
    match buffer with
    | [] => .error .assertion
    | [a] => return atom a
    | buffer => return array buffer (stop - start)) := by
  cases t with
  | atom a => exact absurd rfl (ht a)
  | concat l r n k => rfl
  | array es n => rfl
  | own g f rs => rfl

theorem OK.subSequence {t : Compound α} (h : t.OK ops) (hs : t.strip.Sane Good) (i j : Int) :
    (t.subSequence ops i j).map strip = t.strip.subSequence ops i j ∧
      ∀ u, t.subSequence ops i j = .ok u → u.OK ops := by
  have h1 := h.leaves
  have h2 := hs.leaves
  by_cases ha : ∃ a, t = atom a
  · obtain ⟨a, rfl⟩ := ha
    rw [Compound.subSequence, strip, Rope.subSequence]
    cases ops.subSequence a i j with
    | error e => exact ⟨rfl, fun u hu => by cases hu⟩
    | ok b => exact ⟨rfl, fun u hu => by cases hu; trivial⟩
  · have hat : ∀ a, t ≠ atom a := fun a e => ha ⟨a, e⟩
    have hat' : ∀ a, t.strip ≠ .atom a := by
      intro a e
      cases t with
      | atom b => exact hat b rfl
      | concat l r n k => cases e
      | array es n => cases e
      | own g f rs => cases e
    rw [subSequence_own t hat, subSequence_composite ops hat', h1, h2, strip_length]
    cases checkPositionIndexes i j (t.length ops) with
    | error e => exact ⟨rfl, fun u hu => by cases hu⟩
    | ok _ =>
      simp only [bind_ok]
      by_cases hij : i = j
      · rw [if_pos hij, if_pos hij]; exact ⟨rfl, fun u hu => by cases hu; trivial⟩
      · rw [if_neg hij, if_neg hij]
        by_cases hw : i = 0 ∧ j = t.length ops
        · rw [if_pos hw, if_pos hw]; exact ⟨rfl, fun u hu => by cases hu; exact h⟩
        · rw [if_neg hw, if_neg hw]
          cases Rope.subLoop ops none t.strip.flat i j [] with
          | error e => exact ⟨rfl, fun u hu => by cases hu⟩
          | ok x =>
            obtain ⟨b, s, e⟩ := x
            simp only [bind_ok]
            match b with
            | [] => exact ⟨rfl, fun u hu => by cases hu⟩
            | [a] => exact ⟨rfl, fun u hu => by cases hu; trivial⟩
            | a :: b :: bs => exact ⟨rfl, fun u hu => by cases hu; exact fun h => by cases h⟩

theorem strip_spaceJustify (ctx : FormatContext) (t : Compound α) :
    (spaceJustify ops ctx t).strip = Rope.spaceJustify ops ctx t.strip := by
  unfold spaceJustify Rope.spaceJustify
  simp only [strip_length]
  by_cases h : SeqFormatter.width ctx > t.length ops
  · simp only [if_pos h]
    by_cases h2 : ctx.hasFlag .leftJustify = true
    · simp only [if_pos h2, strip_append]; rfl
    · simp only [if_neg h2, strip_prepend]; rfl
  · simp only [if_neg h]

theorem OK.spaceJustify (ctx : FormatContext) {t : Compound α} (h : t.OK ops) : (Compound.spaceJustify ops ctx t).OK ops := by
  unfold Compound.spaceJustify
  dsimp only
  split
  · split
    · exact OK.append h trivial
    · exact OK.prepend h trivial
  · exact h

theorem OK.formatS (ctx : FormatContext) {t : Compound α} (h : t.OK ops) (hs : t.strip.Sane Good) :
    (Compound.formatS ops ctx t).map strip = Rope.formatS ops ctx t.strip ∧
      ∀ u, Compound.formatS ops ctx t = .ok u → u.OK ops := by
  unfold Compound.formatS Rope.formatS
  rw [strip_length]
  by_cases hc : (ctx.isPrecisionSet && decide (ctx.precision < t.length ops)) = true
  · rw [if_pos hc, if_pos hc]
    obtain ⟨e1, e2⟩ := h.subSequence hs 0 ctx.precision
    rw [← e1]
    cases hx : t.subSequence ops 0 ctx.precision with
    | error e => exact ⟨rfl, fun u hu => by cases hu⟩
    | ok u => exact ⟨congrArg Except.ok (strip_spaceJustify ctx u), fun v hv => by cases hv; exact (e2 u hx).spaceJustify ctx⟩
  · rw [if_neg hc, if_neg hc]
    exact ⟨congrArg Except.ok (strip_spaceJustify ctx t), fun v hv => by cases hv; exact h.spaceJustify ctx⟩

theorem OK.upper_ok {t u : Compound α} (h : t.OK ops) (hs : t.strip.Sane Good) (hu : t.upperCase ops = .ok u)
    (hus : u.strip.Sane Good) : u.OK ops := by
  have h1 := h.leaves
  have h3 := h.count
  have key : ∀ (x : Res (List α)) (n : Int),
      (do let es ← x; Rope.atEnd none (.ok (Compound.array es n)) : Res (Compound α)) = .ok u → ∃ es, u = .array es n := by
    intro x n hx
    cases x with
    | error e => cases hx
    | ok es => exact ⟨es, by cases hx; rfl⟩
  have fin : (∃ es n, u = .array es n) → u.OK ops := by
    rintro ⟨es, n, rfl⟩
    exact hus.1
  cases t with
  | atom a =>
    rw [Compound.upperCase] at hu
    cases hx : ops.upperCase a with
    | error e => rw [hx] at hu; cases hu
    | ok b => rw [hx] at hu; cases hu; trivial
  | concat l r n k =>
    rw [Compound.upperCase, h1, if_neg (by omega)] at hu
    · obtain ⟨es, he⟩ := key _ _ hu; exact fin ⟨es, _, he⟩
    · simp
  | array es n =>
    rw [Compound.upperCase, h1, if_neg (by omega)] at hu
    · obtain ⟨es, he⟩ := key _ _ hu; exact fin ⟨es, _, he⟩
    · simp
  | own g f rs =>
    rw [Compound.upperCase, h1, if_neg (by omega)] at hu
    · obtain ⟨es, he⟩ := key _ _ hu; exact fin ⟨es, _, he⟩
    · simp

theorem map_strip_ok {x : Res (Compound α)} {q : Rope α} (h : x.map strip = .ok q) : ∃ u, x = .ok u ∧ u.strip = q := by
  cases x with
  | error e => cases h
  | ok u => cases h; exact ⟨u, rfl, rfl⟩

variable (F : Faithful ops Good txt)
include F

theorem printS_eq (ctx : FormatContext) (hp : SeqFormatter.PrecOK ctx) (up : Bool) {t : Compound α} (h : t.OK ops)
    (hw : t.strip.WF ops Good txt) (sb : JStr) : printS ops ctx up t sb = Rope.printS ops ctx up t.strip sb := by
  obtain ⟨e1, e2⟩ := h.formatS ctx hw.sane
  obtain ⟨q, q1, q2, _⟩ := Rope.formatS_spec F ctx hp hw rfl
  rw [q1] at e1
  obtain ⟨u, u1, rfl⟩ := map_strip_ok e1
  have hu := e2 u u1
  rw [printS, Rope.printS, q1, u1, bind_ok, bind_ok]
  cases up with
  | false => exact hu.appendToSB q2 sb
  | true =>
    simp only [if_true]
    obtain ⟨v, v1, v2, _, _⟩ := Rope.upperCase_pieces F q2
    obtain ⟨w, w1, rfl⟩ := map_strip_ok ((hu.upperCase q2).trans v1)
    rw [w1, v1, bind_ok, bind_ok]
    exact (OK.upper_ok hu q2 w1 v2).appendToSB v2 sb

theorem eval_spec (e : History α) (h : e.AllGood ops Good) :
    ∃ t, e.eval ops = .ok t ∧ t.OK ops ∧ t.strip.WF ops Good txt ∧
      nonEmpty (t.strip.flat.map txt) = nonEmpty (e.pieces txt) := by
  induction e with
  | leaf a => exact ⟨.atom a, rfl, trivial, h, rfl⟩
  | own g f rs =>
    have hne : g.walk.seen ≠ [] := by
      obtain ⟨a, st', _, h2, _, _⟩ := unfoldLoop_spec f h.1.2.2.2.2.1 rs h.1.2.2.2.2.2
      rw [h.1.1, flats, h2]; simp
    exact ⟨.own g f rs, rfl, h.1, ⟨hne, h.2, by rw [h.1.2.2.1, Rope.sum_lengths F _ h.2]⟩, rfl⟩
  | concat l r ihl ihr =>
    obtain ⟨x, x1, x0, x2, x3⟩ := ihl h.1
    obtain ⟨y, y1, y0, y2, y3⟩ := ihr h.2
    refine ⟨mkConcat ops x y, by rw [History.eval, x1, bind_ok, y1]; rfl, x0.mkConcat y0, ?_, ?_⟩
    · rw [strip_mkConcat]; exact Rope.mkConcat_wf x2 y2
    · rw [strip_mkConcat, Rope.mkConcat_flat, List.map_append, nonEmpty_append, x3, y3, History.pieces, nonEmpty_append]
  | append l r ihl ihr =>
    obtain ⟨x, x1, x0, x2, x3⟩ := ihl h.1
    obtain ⟨y, y1, y0, y2, y3⟩ := ihr h.2
    refine ⟨x.append ops y, by rw [History.eval, x1, bind_ok, y1]; rfl, x0.append y0, ?_, ?_⟩
    · rw [strip_append]; exact (Rope.append_spec F x2 y2).1
    · rw [strip_append, Rope.append_pieces F x2 y2, x3, y3, History.pieces, nonEmpty_append]
  | prepend l r ihl ihr =>
    obtain ⟨x, x1, x0, x2, x3⟩ := ihl h.1
    obtain ⟨y, y1, y0, y2, y3⟩ := ihr h.2
    refine ⟨x.prepend ops y, by rw [History.eval, x1, bind_ok, y1]; rfl, x0.prepend y0, ?_, ?_⟩
    · rw [strip_prepend]; exact (Rope.prepend_spec F x2 y2).1
    · rw [strip_prepend, Rope.prepend_pieces F x2 y2, x3, y3, History.pieces, nonEmpty_append]
  | join es =>
    refine ⟨_, rfl, OK.join es, by rw [strip_join]; exact (Rope.join_spec F es h).1, ?_⟩
    match es with
    | [] => simp [join, strip, Rope.flat, nonEmpty, F.empty.2, History.pieces]
    | [a] => rfl
    | a :: b :: es => rfl
  | upper e ih =>
    obtain ⟨x, x1, x0, x2, x3⟩ := ih h
    obtain ⟨u, u1, u2, u3, u4⟩ := Rope.upperCase_pieces F x2.sane
    obtain ⟨w, w1, rfl⟩ := map_strip_ok ((x0.upperCase x2.sane).trans u1)
    refine ⟨w, by rw [History.eval, x1, bind_ok, w1], OK.upper_ok x0 x2.sane w1 u2, u4 x2, ?_⟩
    rw [History.pieces, nonEmpty_map, ← x3, ← nonEmpty_map, u3, List.map_map]; rfl

theorem OK.agrees {t : Compound α} (h : t.OK ops) (hw : t.strip.WF ops Good txt) : Agrees ops t (t.strip.text txt) := by
  have A := hw.agrees F
  have hs := hw.sane
  exact {
    length := by rw [← strip_length]; exact A.length
    isEmpty := by rw [← strip_isEmpty]; exact A.isEmpty
    charAt := fun i c hi => by rw [h.charAt hs]; exact A.charAt i c hi
    charAt_out := fun i hi => by rw [h.charAt hs]; exact A.charAt_out i hi
    indexOf := fun c => by rw [h.indexOf hs]; exact A.indexOf c
    startsWith := fun c => by rw [h.startsWith hs]; exact A.startsWith c
    toStr := fun ho => by rw [h.toStr hs ho]; exact A.toStr
    toBuilder := fun sb => by rw [h.appendToSB hs]; exact A.toBuilder sb
    toAppendable := by rw [h.appendToCalls hs]; exact A.toAppendable }

end Compound
end FastPrintf.Own
