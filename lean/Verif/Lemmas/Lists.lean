import Verif.Model.Base
/-! Lemmas about `copyAt` and `slice`. -/
namespace Dparm

theorem copyAt_length (m : Bytes) (i : Nat) (p : Bytes) (h : i + p.length ≤ m.length) :
    (copyAt m i p).length = m.length := by
  simp [copyAt]; omega

@[simp] theorem copyAt_nil (m : Bytes) (i : Nat) : copyAt m i [] = m := by
  simp [copyAt]

theorem getElem?_copyAt (m : Bytes) (i : Nat) (p : Bytes) (j : Nat) (h : i + p.length ≤ m.length) :
    (copyAt m i p)[j]? = if i ≤ j ∧ j < i + p.length then p[j - i]? else m[j]? := by
  unfold copyAt
  rw [List.append_assoc, List.getElem?_append]
  simp only [List.length_take, Nat.min_eq_left (show i ≤ m.length by omega)]
  by_cases h1 : j < i
  · have : ¬ (i ≤ j ∧ j < i + p.length) := by omega
    simp [h1, this]
  · rw [if_neg h1, List.getElem?_append]
    by_cases h2 : j - i < p.length
    · have : i ≤ j ∧ j < i + p.length := by omega
      simp [h2, this]
    · have : ¬ (i ≤ j ∧ j < i + p.length) := by omega
      simp only [h2, this, if_false, List.getElem?_drop]
      congr 1; omega

theorem slice_length (m : Bytes) (i n : Nat) (h : i + n ≤ m.length) : (slice m i n).length = n := by
  simp [slice]; omega

theorem getElem?_slice (m : Bytes) (i n j : Nat) :
    (slice m i n)[j]? = if j < n then m[i + j]? else none := by
  unfold slice
  rw [List.getElem?_take]
  split <;> simp_all

theorem slice_copyAt_same (m : Bytes) (i : Nat) (p : Bytes) (h : i + p.length ≤ m.length) :
    slice (copyAt m i p) i p.length = p := by
  apply List.ext_getElem?
  intro j
  rw [getElem?_slice]
  split
  · rw [getElem?_copyAt _ _ _ _ h, if_pos (by omega)]
    congr 1; omega
  · rw [List.getElem?_eq_none]; omega

theorem slice_copyAt_disjoint (m : Bytes) (i : Nat) (p : Bytes) (a n : Nat)
    (h : i + p.length ≤ m.length) (hd : a + n ≤ i ∨ i + p.length ≤ a) :
    slice (copyAt m i p) a n = slice m a n := by
  apply List.ext_getElem?
  intro j
  simp only [getElem?_slice]
  split
  · rw [getElem?_copyAt _ _ _ _ h, if_neg (by omega)]
  · rfl

theorem copyAt_comm (m : Bytes) (i j : Nat) (p q : Bytes)
    (hi : i + p.length ≤ m.length) (hj : j + q.length ≤ m.length)
    (hd : i + p.length ≤ j ∨ j + q.length ≤ i) :
    copyAt (copyAt m i p) j q = copyAt (copyAt m j q) i p := by
  apply List.ext_getElem?
  intro k
  rw [getElem?_copyAt _ _ _ _ (by rw [copyAt_length _ _ _ hi]; exact hj),
    getElem?_copyAt _ _ _ _ hi, getElem?_copyAt _ _ _ _ (by rw [copyAt_length _ _ _ hj]; exact hi),
    getElem?_copyAt _ _ _ _ hj]
  split <;> split <;> first | rfl | omega

theorem copyAt_append (m : Bytes) (i : Nat) (p q : Bytes) (h : i + p.length + q.length ≤ m.length) :
    copyAt (copyAt m i p) (i + p.length) q = copyAt m i (p ++ q) := by
  apply List.ext_getElem?
  intro k
  rw [getElem?_copyAt _ _ _ _ (by rw [copyAt_length _ _ _ (by omega)]; omega),
    getElem?_copyAt _ _ _ _ (by omega),
    getElem?_copyAt _ _ _ _ (by simp; omega)]
  simp only [List.getElem?_append, List.length_append]
  split
  · rw [if_pos (by omega), if_neg (by omega)]; congr 1; omega
  · split
    · rw [if_pos (by omega), if_pos (by omega)]
    · rw [if_neg (by omega)]

theorem slice_slice (m : Bytes) (a n b k : Nat) (h : b + k ≤ n) :
    slice (slice m a n) b k = slice m (a + b) k := by
  apply List.ext_getElem?
  intro j
  simp only [getElem?_slice]
  split
  · rw [if_pos (by omega)]; congr 1; omega
  · rfl

theorem slice_append_slice (m : Bytes) (a n k : Nat) :
    slice m a n ++ slice m (a + n) k = slice m a (n + k) := by
  unfold slice
  rw [List.take_add, List.drop_drop]

theorem slice_self (m : Bytes) : slice m 0 m.length = m := by simp [slice]

theorem slice_mid (a b c : Bytes) (n k : Nat) (hn : n = a.length) (hk : k = b.length) :
    slice (a ++ (b ++ c)) n k = b := by
  subst hn hk
  unfold slice
  rw [List.drop_left, List.take_left]

theorem drop_left' (a b : Bytes) (n : Nat) (hn : n = a.length) : (a ++ b).drop n = b := by
  subst hn; exact List.drop_left

end Dparm
