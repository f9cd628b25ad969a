import Verif.Model.LoadBalancer
import Mathlib.Algebra.BigOperators.Group.List.Basic
/-
C122: slices of problem lists and accesses to fields.
-/
set_option autoImplicit false

namespace DLB

variable {α : Type}

/-- **C122, slices.** A view of `size` entries from `start` is defined exactly if the list has these
entries, and is then these entries.  Anything else is undefined behaviour. -/
theorem C122_slice (xs : List α) (size start : Int) :
    (∀ b, subList xs size start = .ok b ↔ ∃ pre post, xs = pre ++ b ++ post ∧
      (pre.length : Int) = start ∧ (b.length : Int) = size) ∧
    ∀ e, subList xs size start = .error e → e = .ub := by
  unfold subList
  constructor
  · intro b
    split
    · next h =>
      obtain ⟨h1, h2, h3⟩ := h
      constructor
      · intro hb
        simp only [Except.ok.injEq] at hb
        subst hb
        refine ⟨xs.take start.toNat, (xs.drop start.toNat).drop size.toNat, ?_, ?_, ?_⟩
        · rw [List.append_assoc, List.take_append_drop, List.take_append_drop]
        · rw [List.length_take]; omega
        · rw [List.length_take, List.length_drop]; omega
      · rintro ⟨pre, post, rfl, rfl, rfl⟩
        simp
    · next h =>
      constructor
      · intro hb; cases hb
      · rintro ⟨pre, post, rfl, rfl, rfl⟩
        simp only [List.length_append] at h
        omega
  · intro e he
    split at he
    · cases he
    · cases he; rfl

theorem foldl_add_sum_int (l : List Int) (a : Int) : l.foldl (· + ·) a = a + l.sum := by
  induction l generalizing a with
  | nil => simp
  | cons x l ih => rw [List.foldl_cons, ih, List.sum_cons, add_assoc]

/-- **C122, blocks of a send buffer.** Block `i` is defined exactly if there is a count `i`, the
counts before it have a sum that is not negative, and the values have the entries; it is then the
entries of that number after the blocks before it. -/
theorem C122_block (values : List α) (counts : List Int) (i : Nat) :
    (∀ b, sendBufferAt values counts i = .ok b ↔ ∃ pre post, values = pre ++ b ++ post ∧
      (pre.length : Int) = (counts.take i).sum ∧ counts[i]? = some (b.length : Int)) ∧
    ∀ e, sendBufferAt values counts i = .error e → e = .ub := by
  unfold sendBufferAt
  by_cases h : i < counts.length
  · have hle : i ≤ counts.length := Nat.le_of_lt h
    have hg : getAt counts i = .ok counts[i] := by
      unfold getAt; rw [List.getElem?_eq_getElem h]
    simp only [hle, if_true, hg, bind, Except.bind, foldl_add_sum_int, zero_add]
    obtain ⟨h1, h2⟩ := C122_slice values counts[i] (counts.take i).sum
    refine ⟨fun b => ?_, h2⟩
    rw [h1, List.getElem?_eq_getElem h]
    simp only [Option.some.injEq]
    constructor <;> (rintro ⟨p, q, a, b, c⟩; exact ⟨p, q, a, b, c.symm⟩)
  · have hn : counts[i]? = none := by simpa using h
    have hg : getAt counts i = .error .ub := by
      unfold getAt; rw [hn]
    simp only [hg, hn, bind, Except.bind]
    constructor
    · intro b
      constructor
      · intro hb; split at hb <;> cases hb
      · rintro ⟨_, _, _, _, hc⟩; cases hc
    · intro e he
      split at he <;> (cases he; rfl)

/-- **C122, the remaining problems.** They are the last entries, as many as the state says, and
undefined if the list has fewer. -/
theorem C122_remaining (st : BalancerState) (values : List α) :
    (∀ b, getRemaining st values = .ok b ↔ ∃ pre, values = pre ++ b ∧
      (b.length : Int) = st.nRemaining) ∧
    ∀ e, getRemaining st values = .error e → e = .ub := by
  unfold getRemaining
  obtain ⟨h1, h2⟩ := C122_slice values st.nRemaining (values.length - st.nRemaining)
  refine ⟨fun b => ?_, h2⟩
  rw [h1]
  constructor
  · rintro ⟨pre, post, rfl, hp, hb⟩
    have : post.length = 0 := by
      simp only [List.length_append] at hp
      push_cast at hp
      omega
    rw [List.length_eq_zero_iff] at this
    subst this
    exact ⟨pre, by simp, hb⟩
  · rintro ⟨pre, rfl, hb⟩
    refine ⟨pre, [], by simp, ?_, hb⟩
    rw [← hb, List.length_append]
    push_cast
    omega

/-- **C122, elements.** Reading or writing an entry of a field with `n` entries is defined exactly
within the field, gives or changes this entry and no other, and is undefined behaviour otherwise. -/
theorem C122_elements (n : Nat) (f : Nat → α) (i : Nat) (v : α) :
    (readAt n f i = if i < n then .ok (f i) else .error .ub) ∧
    (i < n → ∃ g, writeAt n f i v = .ok g ∧ g i = v ∧ ∀ k, k ≠ i → g k = f k) ∧
    (¬ i < n → writeAt n f i v = .error .ub) := by
  refine ⟨rfl, fun h => ⟨_, if_pos h, if_pos rfl, fun k hk => if_neg hk⟩, fun h => if_neg h⟩

/-- **C122, entries of lists.** -/
theorem C122_list_elements (xs : List α) (i : Nat) :
    (∀ v, getAt xs i = .ok v ↔ ∃ pre post, xs = pre ++ v :: post ∧ pre.length = i) ∧
    ∀ e, getAt xs i = .error e → e = .ub := by
  unfold getAt
  constructor
  · intro v
    constructor
    · intro h
      split at h
      · next x hx =>
        cases h
        obtain ⟨hi, hx⟩ := List.getElem?_eq_some_iff.1 hx
        refine ⟨xs.take i, xs.drop (i + 1), ?_, by rw [List.length_take]; omega⟩
        rw [← hx, ← List.drop_eq_getElem_cons hi, List.take_append_drop]
      · cases h
    · rintro ⟨pre, post, rfl, rfl⟩
      simp
  · intro e he
    split at he
    · cases he
    · cases he; rfl

/-- Blocks of 2 and 1 of four entries, the remaining one, a missing block, a block that is too
long, and a count that is negative. -/
example : (sendBufferAt [10, 11, 12, 13] [2, 1] 1).toOption = some [12] ∧
    (getRemaining ⟨[], [], [2, 1], 1⟩ [10, 11, 12, 13]).toOption = some [13] ∧
    (sendBufferAt [10, 11, 12, 13] [2, 1] 2).toOption = none ∧
    (sendBufferAt [10, 11, 12, 13] [2, 3] 1).toOption = none ∧
    (sendBufferAt [10, 11, 12, 13] [-1, 1] 1).toOption = none := by decide +kernel

end DLB
