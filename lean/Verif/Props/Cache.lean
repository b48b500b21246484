/-
C57: equality and hash code of character arrays.  C58: fields filled by racing threads.
-/
import Verif.Proofs.Cache
import Mathlib.Algebra.BigOperators.Ring.List
import Mathlib.Data.List.GetD
import Mathlib.Data.List.Induction

namespace FastPrintf

namespace Spec

/-- The hash code of a string as `java.lang.String.hashCode` documents it: the sum of
`s[i] * 31^(n-1-i)`, in `int` arithmetic. -/
def stringHash (s : JStr) : BitVec 32 :=
  BitVec.ofNat 32 ((List.range s.length).map fun i => s.getD i 0 * 31 ^ (s.length - 1 - i)).sum

end Spec

open Spec

theorem stringHash_concat (s : JStr) (c : JChar) :
    stringHash (s ++ [c]) = 31#32 * stringHash s + BitVec.ofNat 32 c := by
  unfold stringHash
  rw [← BitVec.ofNat_mul, ← BitVec.ofNat_add]
  congr 1
  rw [List.length_append, List.length_singleton, List.range_succ, List.map_append, List.sum_append]
  have h1 : ((List.range s.length).map fun i => (s ++ [c]).getD i 0 * 31 ^ (s.length + 1 - 1 - i)) =
      (List.range s.length).map fun i => 31 * (s.getD i 0 * 31 ^ (s.length - 1 - i)) := by
    apply List.map_congr_left
    intro i hi
    rw [List.mem_range] at hi
    rw [List.getD_append _ _ _ _ hi, show s.length + 1 - 1 - i = (s.length - 1 - i) + 1 by omega, pow_succ]
    ring
  rw [h1, List.sum_map_mul_left]
  simp

theorem foldl_hash (s : JStr) :
    s.foldl (fun h c => 31#32 * h + BitVec.ofNat 32 c) 0#32 = stringHash s := by
  induction s using List.reverseRecOn with
  | nil => rfl
  | append_singleton s c ih => rw [List.foldl_append, ih, stringHash_concat]; rfl

/-- **C57 (hash code).** The hash code of a character array is that of the string with its text. -/
theorem C57_hash (a : JStr) (start length : Nat) (up : Bool) (h : (Atomic.charArray a start length up).WF) :
    Atomic.arrayHash a start length up = .ok (stringHash (Atomic.charArray a start length up).text) := by
  rw [Atomic.arrayHash, Atomic.hashLoop_eq _ _ _ _ _ h, ← foldl_hash, Atomic.text, List.foldl_map]
  simp only [caseOf_eq]

/-- **C57 (equality).** Two character arrays are equal exactly if they have the same text, whatever arrays
and offsets they are made of, and whether or not they are upper-cased. -/
theorem C57_equals (x y : Atomic) (hx : x.WF) (hy : y.WF) (same : Bool) (hs : same = true → x = y)
    (h1 : ∃ a st n up, x = .charArray a st n up) (h2 : ∃ a st n up, y = .charArray a st n up) :
    Atomic.arrayEquals x y same = .ok (decide (x.text = y.text)) := by
  unfold Atomic.arrayEquals
  by_cases h : same = true
  · rw [if_pos h, hs h]; simp
  · rw [if_neg h]
    obtain ⟨a, st, n, up, rfl⟩ := h1
    obtain ⟨b, su, m, vp, rfl⟩ := h2
    have l1 := Atomic.length_text hx
    have l2 := Atomic.length_text hy
    simp only [Atomic.length] at l1 l2
    dsimp only
    by_cases hn : n ≠ m
    · rw [if_pos hn]
      have : (Atomic.charArray a st n up).text ≠ (Atomic.charArray b su m vp).text := by
        intro he; rw [he] at l1; omega
      simp [this]
    · rw [if_neg hn, Atomic.equalsLoop_eq hx hy (by omega) n 0 (by omega)]; simp

/-- Nothing else equals a character array, not even another sequence with the same text. -/
theorem C57_other (x y : Atomic) (h2 : ∀ a st n up, y ≠ .charArray a st n up) :
    Atomic.arrayEquals x y false = .ok false := by
  unfold Atomic.arrayEquals
  cases x <;> cases y <;> first | rfl | exact absurd rfl (h2 _ _ _ _)

/-- **C57 (the contract).** Equal character arrays have the same hash code. -/
theorem C57_contract (a b : JStr) (st n su m : Nat) (up vp same : Bool)
    (hx : (Atomic.charArray a st n up).WF) (hy : (Atomic.charArray b su m vp).WF)
    (hs : same = true → Atomic.charArray a st n up = .charArray b su m vp)
    (h : Atomic.arrayEquals (.charArray a st n up) (.charArray b su m vp) same = .ok true) :
    Atomic.arrayHash a st n up = Atomic.arrayHash b su m vp := by
  rw [C57_equals _ _ hx hy same hs ⟨_, _, _, _, rfl⟩ ⟨_, _, _, _, rfl⟩] at h
  rw [C57_hash _ _ _ _ hx, C57_hash _ _ _ _ hy]
  simp only [Except.ok.injEq, decide_eq_true_eq] at h
  rw [h]

-- "ABC" cut out of two different arrays, once by upper-casing
example : Atomic.arrayEquals (.charArray (js! "xabcx") 1 3 true) (.charArray (js! "ABC") 0 3 false) false = .ok true ∧
    Atomic.arrayHash (js! "xabcx") 1 3 true = .ok 64578#32 ∧
    Atomic.arrayEquals (.charArray (js! "ABC") 0 3 false) (.charArray (js! "ABD") 0 3 false) false = .ok false ∧
    Atomic.arrayEquals (.charArray (js! "ABC") 0 3 false) (.strView (js! "ABC") 0 3 false) false = .ok false := by
  decide
-- the arithmetic wraps
example : stringHash (js! "polygenelubricants") = BitVec.intMin 32 := by decide +kernel

/-! ### Races -/

/-- What a call of a method of `LazySeq` returns on the sequence itself. -/
def LazyCall.on (q : Atomic) : LazyCall → Res Observed
  | .charAt i => do return .char (← q.charAt i)
  | .subSequence i j => do return .seq (← q.subSequence i j)
  | .upperCase => do return .seq (← q.upperCase)
  | .toStr => do return .text (← q.toStr)
  | .appendTo => do return .calls (← q.appendToCalls)

theorem lazy_alone (out : JStr) (n : Nat) (op : LazyCall) :
    (lazyCached out n).alone op = op.on (.lazy out n) := by
  unfold Cached.alone
  cases op with
  | charAt i =>
    simp only [LazyCall.on, Atomic.charAt, lazyCached]
    cases h : checkPositionIndex i n with
    | error e => simp [bind_error]
    | ok u => cases hg : Atomic.getCachedString out n <;> simp [bind_error, bind_ok]
  | subSequence i j =>
    simp only [LazyCall.on, Atomic.subSequence, lazyCached]
    cases h : checkPositionIndexes i j n with
    | error e => simp [bind_error]
    | ok u => cases hg : Atomic.getCachedString out n <;> simp [bind_error, bind_ok]
  | upperCase =>
    simp only [LazyCall.on, lazyCached, bind_ok]
    cases hg : Atomic.getCachedString out n with
    | error e => simp [Atomic.upperCase, hg, bind_error]
    | ok s =>
      have : (Atomic.lazy out n).upperCase = (Atomic.wrap s).upperCase := by
        rw [Atomic.upperCase, hg, bind_ok]
        rcases s with _ | ⟨c, _ | ⟨d, s⟩⟩ <;> rfl
      rw [this]; rfl
  | toStr =>
    simp only [LazyCall.on, Atomic.toStr, lazyCached, bind_ok]
    cases hg : Atomic.getCachedString out n <;> simp [bind_error, bind_ok]
  | appendTo =>
    simp only [LazyCall.on, Atomic.appendToCalls, lazyCached, bind_ok]
    cases hg : Atomic.getCachedString out n <;> simp [bind_error, bind_ok]

/-- **C58 (any class of this shape).** Whatever the threads call, in whatever order they move and whatever
values their racing reads return: the results of each thread so far are those of the first of its calls,
each made by a single thread on a fresh object. -/
theorem C58_race {α β ι : Type} [DecidableEq α] (C : Cached α β ι) (calls : Nat → List ι)
    (schedule : List (Nat × Nat)) (t : Nat) :
    (((Race.initial calls).run C schedule).callers t).results <+: (calls t).map C.alone := by
  obtain ⟨_, h⟩ := (Race.run_good schedule (Race.initial_good C calls)).callers t
  exact ⟨_, h⟩

/-- A thread that moved five times per call has all its results. -/
theorem C58_finishes {α β ι : Type} [DecidableEq α] (C : Cached α β ι) (calls : Nat → List ι)
    (schedule : List (Nat × Nat)) (t : Nat) (h : 5 * (calls t).length ≤ (schedule.map Prod.fst).count t) :
    (((Race.initial calls).run C schedule).callers t).results = (calls t).map C.alone := by
  obtain ⟨_, hg⟩ := (Race.run_good schedule (Race.initial_good C calls)).callers t
  have hl := Race.run_left C t schedule (Race.initial calls)
  have h0 : ((Race.initial calls : Race α β ι).callers t).left = 5 * (calls t).length := by
    simp [Race.initial, Caller.left]
  generalize (Race.run C (Race.initial calls) schedule).callers t = c at hg hl ⊢
  obtain ⟨todo, place, results⟩ := c
  have : (⟨todo, place, results⟩ : Caller α β ι).left = 0 := by omega
  cases place <;> simp only [Caller.left] at this <;> try omega
  have ht : todo = [] := List.length_eq_zero_iff.1 (by omega)
  simpa [ht, Place.current] using hg

/-- **C58 (lazy sequences).** -/
theorem C58_lazy (out : JStr) (n : Nat) (calls : Nat → List LazyCall) (schedule : List (Nat × Nat)) (t : Nat) :
    (((Race.initial calls).run (lazyCached out n) schedule).callers t).results <+:
      (calls t).map (LazyCall.on (.lazy out n)) := by
  have h := C58_race (lazyCached out n) calls schedule t
  rwa [List.map_congr_left (fun op _ => lazy_alone out n op)] at h

/-- **C58 (hash codes).** -/
theorem C58_hash (a : JStr) (start length : Nat) (up : Bool) (h : (Atomic.charArray a start length up).WF)
    (calls : Nat → List Unit) (schedule : List (Nat × Nat)) (t : Nat) :
    ∀ r ∈ (((Race.initial calls).run (hashCached a start length up) schedule).callers t).results,
      r = .ok (stringHash (Atomic.charArray a start length up).text) := by
  intro r hr
  have := (C58_race (hashCached a start length up) calls schedule t).subset hr
  obtain ⟨u, -, rfl⟩ := List.mem_map.1 this
  simp only [Cached.alone, hashCached, bind_ok, C57_hash _ _ _ _ h]

/-- Two threads that both find the field empty both run the action. -/
def bothBuild : List (Nat × Nat) := [0, 1, 0, 1, 0, 1, 0, 1, 0, 1].map (·, 0)

-- both get the text, and the field was written twice
example : let w := (Race.initial (fun _ => [LazyCall.toStr])).run (lazyCached (js! "42") 2) bothBuild;
    (w.callers 0).results = [.ok (.text (js! "42"))] ∧ (w.callers 1).results = [.ok (.text (js! "42"))] ∧
    w.values.length = 2 := by decide
/-- The second thread sees the value of the first, and then misses it. -/
def staleRead : List (Nat × Nat) :=
  List.replicate 5 (0, 0) ++ [(1, 0), (1, 1), (1, 0)] ++ List.replicate 5 (1, 0)

example : let w := (Race.initial (fun _ => [LazyCall.toStr, .charAt 1])).run (lazyCached (js! "42") 2) staleRead;
    (w.callers 1).results = [.ok (.text (js! "42")), .ok (.char (ch! '2'))] ∧ w.values.length = 2 := by decide

end FastPrintf
