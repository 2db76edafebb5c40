import Verif.Model.Utils
import Verif.Spec.Handle
import Verif.Lemmas.Numbers
/-!
# Byte swapping and trimming (C53, used by C48)
-/
namespace Dparm
open Spec

/-- Swapping succeeds exactly on even lengths. -/
theorem swap_ok : ∀ s : Bytes, (s.length % 2 = 0 → ∃ o, ataSwapWordEndian s = .ret o ∧ PairSwapped s o ∧
      ataSwapWordEndian o = .ret s) ∧ (s.length % 2 = 1 → ataSwapWordEndian s = .panic)
  | [] => ⟨fun _ => ⟨[], rfl, ⟨rfl, by intro i h; simp at h⟩, rfl⟩, fun h => by simp at h⟩
  | [_] => ⟨fun h => by simp at h, fun _ => rfl⟩
  | a :: b :: rest => by
    obtain ⟨h1, h2⟩ := swap_ok rest
    have e : (a :: b :: rest).length % 2 = rest.length % 2 := by simp only [List.length_cons]; omega
    rw [e]
    constructor
    · intro h
      obtain ⟨o, ho, ⟨hl, hi⟩, hb⟩ := h1 h
      refine ⟨b :: a :: o, by simp [ataSwapWordEndian, ho], ⟨by simp [hl], ?_⟩, by simp [ataSwapWordEndian, hb]⟩
      intro i hlt
      cases i with
      | zero => simp
      | succ i =>
        simp only [List.length_cons] at hlt
        have := hi i (by omega)
        have e1 : 2 * (i + 1) = 2 * i + 1 + 1 := by omega
        rw [e1]
        simp only [List.getElem?_cons_succ]
        exact this
    · intro h
      simp [ataSwapWordEndian, h2 h]

/-- **C53.** `AtaSwapWordEndian` exchanges the two bytes of every word exactly for even lengths, is its own
inverse, and panics exactly for odd lengths. -/
theorem swap_spec (s : Bytes) :
    (ataSwapWordEndian s = .panic ↔ s.length % 2 = 1) ∧
    (∀ o, ataSwapWordEndian s = .ret o → PairSwapped s o ∧ ataSwapWordEndian o = .ret s) := by
  obtain ⟨h1, h2⟩ := swap_ok s
  rcases Nat.mod_two_eq_zero_or_one s.length with h | h
  · obtain ⟨o, ho, hp, hb⟩ := h1 h
    rw [ho]
    refine ⟨⟨fun x => by simp at x, fun x => by omega⟩, ?_⟩
    intro o' ho'
    simp only [P.ret.injEq] at ho'
    subst ho'
    exact ⟨hp, hb⟩
  · rw [h2 h]
    exact ⟨⟨fun _ => h, fun _ => rfl⟩, fun o ho => by simp at ho⟩

/-- **C53.** What `AtaSwapWordEndian` leaves in the slice, panic or not: all whole words are swapped, an odd last byte stays; it panics exactly
if there is one. -/
theorem swap_kept (s : Bytes) :
    (ataSwapKept s).2 = (s.length % 2 == 1) ∧
    ∃ words, PairSwapped (s.take (s.length / 2 * 2)) words ∧ (ataSwapKept s).1 = words ++ s.drop (s.length / 2 * 2) ∧
      ataSwapWordEndian s = if (ataSwapKept s).2 then .panic else .ret (ataSwapKept s).1 := by
  induction s using ataSwapKept.induct with
  | case1 => exact ⟨rfl, [], ⟨rfl, by simp⟩, rfl, rfl⟩
  | case2 a => exact ⟨rfl, [], ⟨by simp, by simp⟩, by simp [ataSwapKept], rfl⟩
  | case3 a b rest ih =>
    obtain ⟨h1, w, ⟨h2, h2'⟩, h3, h4⟩ := ih
    have hl : (a :: b :: rest).length / 2 * 2 = rest.length / 2 * 2 + 1 + 1 := by simp only [List.length_cons]; omega
    refine ⟨?_, b :: a :: w, ⟨?_, ?_⟩, ?_, ?_⟩
    · show (ataSwapKept rest).2 = _
      rw [h1]
      congr 1
      simp only [List.length_cons]
      omega
    · rw [hl]; simp only [List.take_succ_cons, List.length_cons, h2]
    · rw [hl]
      simp only [List.take_succ_cons]
      intro i hlt
      cases i with
      | zero => simp
      | succ i =>
        simp only [List.length_cons] at hlt
        have := h2' i (by omega)
        have e1 : 2 * (i + 1) = 2 * i + 1 + 1 := by omega
        rw [e1]
        simp only [List.getElem?_cons_succ]
        exact this
    · rw [hl]
      simp only [ataSwapKept, List.drop_succ_cons, h3, List.cons_append]
    · rw [ataSwapWordEndian, h4]
      by_cases hp : (ataSwapKept rest).2 = true
      · rw [if_pos hp, if_pos (show (ataSwapKept (a :: b :: rest)).2 = true from hp)]
      · rw [if_neg hp, if_neg (show ¬ (ataSwapKept (a :: b :: rest)).2 = true from hp)]
        rfl

example : ataSwapKept [0x49, 0x4e, 0x45] = ([0x4e, 0x49, 0x45], true) := by decide

/-- The result of swapping is determined by `PairSwapped` (on even lengths). -/
theorem pairSwapped_unique {s o o' : Bytes} (he : s.length % 2 = 0) (h : PairSwapped s o) (h' : PairSwapped s o') :
    o = o' := by
  apply List.ext_getElem?
  intro j
  by_cases hj : j < s.length
  · rcases Nat.mod_two_eq_zero_or_one j with hm | hm
    · have e : j = 2 * (j / 2) := by omega
      rw [e, (h.2 (j / 2) (by omega)).1, (h'.2 (j / 2) (by omega)).1]
    · have e : j = 2 * (j / 2) + 1 := by omega
      rw [e, (h.2 (j / 2) (by omega)).2, (h'.2 (j / 2) (by omega)).2]
  · rw [List.getElem?_eq_none (by rw [h.1]; omega), List.getElem?_eq_none (by rw [h'.1]; omega)]

example : ataSwapWordEndian [0x49, 0x4e, 0x45, 0x54] = .ret [0x4e, 0x49, 0x54, 0x45] := by decide

/-- **C53.** The 16- and 32-bit swaps reverse the bytes. -/
theorem swap16_spec (x : BitVec 16) :
    beBytes 2 (ataSwap16 x).toNat = leBytes 2 x.toNat ∧ ataSwap16 (ataSwap16 x) = x := by
  have h1 : ∀ x : BitVec 16, (ataSwap16 x).toNat = (x.toNat % 256) * 256 + x.toNat / 256 := by
    intro x
    have hx := x.isLt
    have e1 : (x &&& 0x00ff#16).toNat = x.toNat % 256 := by
      rw [BitVec.toNat_and]; exact Nat.and_two_pow_sub_one_eq_mod x.toNat 8
    have e2 : ((x &&& 0xff00#16) >>> 8).toNat = x.toNat / 256 := by
      have : (x &&& 0xff00#16) >>> 8 = x >>> 8 := by
        ext i hi
        simp only [BitVec.getElem_ushiftRight, BitVec.getLsbD_and]
        by_cases h8 : i < 8
        · have : ∀ i : Nat, i < 8 → (0xff00#16).getLsbD (8 + i) = true := by decide
          rw [this i h8, Bool.and_true]
        · rw [BitVec.getLsbD_of_ge x (8 + i) (by omega)]
          simp
      rw [this, BitVec.toNat_ushiftRight, Nat.shiftRight_eq_div_pow]
    unfold ataSwap16
    rw [BitVec.toNat_or, BitVec.toNat_shiftLeft, e1, e2, Nat.shiftLeft_eq, Nat.mod_eq_of_lt (by omega),
      Nat.mul_comm, ← Nat.two_pow_add_eq_or_of_lt (by omega)]
  have dig : ∀ (x : BitVec 16) (a b : Byte), x.toNat = leVal [a, b] → (ataSwap16 x).toNat = beVal [a, b] := by
    intro x a b h
    rw [h1, h]
    have ha := a.isLt
    have hb := b.isLt
    simp only [leVal, beVal, List.length_cons, List.length_nil, Nat.pow_zero, Nat.mul_one, Nat.mul_zero, Nat.add_zero]
    generalize a.toNat = m at *
    generalize b.toNat = n at *
    clear h h1 a b
    have q1 : (m + 256 * n) % 256 = m := by omega
    have q2 : (m + 256 * n) / 256 = n := by omega
    rw [q1, q2]
  obtain ⟨a, b, hab⟩ : ∃ a b : Byte, x.toNat = leVal [a, b] := by
    have h := leVal_leBytes 2 x.toNat
    have hx := x.isLt
    exact ⟨_, _, by rw [show [_, _] = leBytes 2 x.toNat from rfl, h, Nat.mod_eq_of_lt (by omega)]⟩
  have hs := dig x a b hab
  constructor
  · rw [hs, hab]
    exact (beBytes_beVal [a, b]).trans (leBytes_leVal [a, b]).symm
  · apply BitVec.eq_of_toNat_eq
    have e : (ataSwap16 x).toNat = leVal [b, a] := by rw [hs]; exact (leVal_reverse [a, b]).symm
    rw [dig _ b a e, hab]
    exact (leVal_reverse [b, a]).symm

theorem and_mask (x k : Nat) : x &&& (255 * 2 ^ k) = (x / 2 ^ k % 256) * 2 ^ k := by
  apply Nat.eq_of_testBit_eq
  intro j
  rw [Nat.testBit_and, Nat.testBit_mul_two_pow, Nat.testBit_mul_two_pow]
  have h1 : Nat.testBit 255 (j - k) = decide (j - k < 8) := Nat.testBit_two_pow_sub_one 8 (j - k)
  have h2 : Nat.testBit (x / 2 ^ k % 256) (j - k) = (decide (j - k < 8) && Nat.testBit (x / 2 ^ k) (j - k)) :=
    Nat.testBit_mod_two_pow _ 8 _
  rw [h1, h2, Nat.testBit_div_two_pow]
  by_cases hk : k ≤ j
  · have : k + (j - k) = j := by omega
    have h3 : (j - k) + k = j := by omega
    simp [hk, h3, Bool.and_comm]
  · simp [hk]

theorem swap32_toNat (x : BitVec 32) : (ataSwap32 x).toNat =
    (x.toNat % 256) * 2 ^ 24 + (x.toNat / 2 ^ 8 % 256) * 2 ^ 16 + (x.toNat / 2 ^ 16 % 256) * 2 ^ 8 + x.toNat / 2 ^ 24 := by
  have hx := x.isLt
  have m0 : (x &&& 0x000000ff#32).toNat = x.toNat % 256 := by
    rw [BitVec.toNat_and]
    exact (and_mask x.toNat 0).trans (by simp)
  have m1 : (x &&& 0x0000ff00#32).toNat = x.toNat / 2 ^ 8 % 256 * 2 ^ 8 := by
    rw [BitVec.toNat_and]; exact and_mask x.toNat 8
  have m2 : (x &&& 0x00ff0000#32).toNat = x.toNat / 2 ^ 16 % 256 * 2 ^ 16 := by
    rw [BitVec.toNat_and]; exact and_mask x.toNat 16
  have m3 : (x &&& 0xff000000#32).toNat = x.toNat / 2 ^ 24 % 256 * 2 ^ 24 := by
    rw [BitVec.toNat_and]; exact and_mask x.toNat 24
  have s0 : ((x &&& 0x000000ff#32) <<< 24).toNat = 2 ^ 24 * (x.toNat % 256) := by
    rw [BitVec.toNat_shiftLeft, m0, Nat.shiftLeft_eq]; omega
  have s1 : ((x &&& 0x0000ff00#32) <<< 8).toNat = 2 ^ 16 * (x.toNat / 2 ^ 8 % 256) := by
    rw [BitVec.toNat_shiftLeft, m1, Nat.shiftLeft_eq]; omega
  have s2 : ((x &&& 0x00ff0000#32) >>> 8).toNat = 2 ^ 8 * (x.toNat / 2 ^ 16 % 256) := by
    rw [BitVec.toNat_ushiftRight, m2, Nat.shiftRight_eq_div_pow]; omega
  have s3 : ((x &&& 0xff000000#32) >>> 24).toNat = x.toNat / 2 ^ 24 := by
    rw [BitVec.toNat_ushiftRight, m3, Nat.shiftRight_eq_div_pow]; omega
  unfold ataSwap32
  rw [BitVec.toNat_or, BitVec.toNat_or, BitVec.toNat_or, s0, s1, s2, s3]
  rw [← Nat.two_pow_add_eq_or_of_lt (i := 24) (by omega)]
  have r2 : 2 ^ 24 * (x.toNat % 256) + 2 ^ 16 * (x.toNat / 2 ^ 8 % 256) =
      2 ^ 16 * (2 ^ 8 * (x.toNat % 256) + x.toNat / 2 ^ 8 % 256) := by omega
  rw [r2, ← Nat.two_pow_add_eq_or_of_lt (i := 16) (by omega)]
  have r3 : 2 ^ 16 * (2 ^ 8 * (x.toNat % 256) + x.toNat / 2 ^ 8 % 256) + 2 ^ 8 * (x.toNat / 2 ^ 16 % 256) =
      2 ^ 8 * (2 ^ 16 * (x.toNat % 256) + 2 ^ 8 * (x.toNat / 2 ^ 8 % 256) + x.toNat / 2 ^ 16 % 256) := by omega
  rw [r3, ← Nat.two_pow_add_eq_or_of_lt (i := 8) (by omega)]
  omega

/-- **C53.** See `swap16_spec`. -/
theorem swap32_spec (x : BitVec 32) :
    beBytes 4 (ataSwap32 x).toNat = leBytes 4 x.toNat ∧ ataSwap32 (ataSwap32 x) = x := by
  have dig : ∀ (x : BitVec 32) (a b c d : Byte), x.toNat = leVal [a, b, c, d] →
      (ataSwap32 x).toNat = beVal [a, b, c, d] := by
    intro x a b c d h
    rw [swap32_toNat, h]
    have ha := a.isLt
    have hb := b.isLt
    have hc := c.isLt
    have hd := d.isLt
    simp only [leVal, beVal, List.length_cons, List.length_nil, Nat.pow_zero, Nat.mul_one, Nat.mul_zero, Nat.add_zero]
    generalize a.toNat = m at *
    generalize b.toNat = n at *
    generalize c.toNat = k at *
    generalize d.toNat = l at *
    clear h a b c d
    have q1 : (m + 256 * (n + 256 * (k + 256 * l))) % 256 = m := by omega
    have q2 : (m + 256 * (n + 256 * (k + 256 * l))) / 2 ^ 8 % 256 = n := by omega
    have q3 : (m + 256 * (n + 256 * (k + 256 * l))) / 2 ^ 16 % 256 = k := by omega
    have q4 : (m + 256 * (n + 256 * (k + 256 * l))) / 2 ^ 24 = l := by omega
    rw [q1, q2, q3, q4]
    omega
  obtain ⟨a, b, c, d, hab⟩ : ∃ a b c d : Byte, x.toNat = leVal [a, b, c, d] := by
    have h := leVal_leBytes 4 x.toNat
    have hx := x.isLt
    exact ⟨_, _, _, _, by rw [show [_, _, _, _] = leBytes 4 x.toNat from rfl, h, Nat.mod_eq_of_lt (by omega)]⟩
  have hs := dig x a b c d hab
  constructor
  · rw [hs, hab]
    exact (beBytes_beVal [a, b, c, d]).trans (leBytes_leVal [a, b, c, d]).symm
  · apply BitVec.eq_of_toNat_eq
    have e : (ataSwap32 x).toNat = leVal [d, c, b, a] := by rw [hs]; exact (leVal_reverse [a, b, c, d]).symm
    rw [dig _ d c b a e, hab]
    exact (leVal_reverse [d, c, b, a]).symm

/-! ## Trimming -/

instance (b : Byte) : Decidable (Blank b) := inferInstanceAs (Decidable (_ ∨ _))

theorem blank_iff (b : Byte) : trimSet.contains b = true ↔ Blank b := by
  revert b; decide +kernel

theorem mem_takeWhile' {p : Byte → Bool} {x : Byte} {l : Bytes} (h : x ∈ l.takeWhile p) : p x = true := by
  induction l with
  | nil => simp at h
  | cons a l ih =>
    by_cases ha : p a = true
    · rw [List.takeWhile_cons_of_pos ha] at h
      rcases List.mem_cons.1 h with rfl | h
      · exact ha
      · exact ih h
    · rw [List.takeWhile_cons_of_neg ha] at h
      simp at h

theorem head_dropWhile {p : Byte → Bool} {x : Byte} {l : Bytes} (h : (l.dropWhile p).head? = some x) :
    p x = false := by
  induction l with
  | nil => simp at h
  | cons a l ih =>
    by_cases ha : p a = true
    · rw [List.dropWhile_cons_of_pos ha] at h; exact ih h
    · rw [List.dropWhile_cons_of_neg ha] at h
      simp only [List.head?_cons, Option.some.injEq] at h
      subst h
      simpa using ha

/-- `strings.Trim` with the cutset removes exactly the blanks at both ends. -/
theorem goTrim_trimmed (s : Bytes) : Trimmed s (goTrim s) := by
  obtain ⟨p, hp⟩ : ∃ p : Byte → Bool, p = fun b => trimSet.contains b := ⟨_, rfl⟩
  have hpb : ∀ b, p b = true ↔ Blank b := by intro b; rw [hp]; exact blank_iff b
  unfold goTrim
  rw [← hp]
  obtain ⟨r, hr⟩ : ∃ r, r = (s.reverse.dropWhile p).reverse := ⟨_, rfl⟩
  rw [← hr]
  have h1 : s = r ++ (s.reverse.takeWhile p).reverse := by
    rw [hr, ← List.reverse_append, List.takeWhile_append_dropWhile, List.reverse_reverse]
  have h2 : r = r.takeWhile p ++ r.dropWhile p := (List.takeWhile_append_dropWhile).symm
  refine ⟨r.takeWhile p, (s.reverse.takeWhile p).reverse, ?_, ?_, ?_, ?_, ?_⟩
  · rw [← h2]; exact h1
  · intro x hx
    exact (hpb x).1 (mem_takeWhile' hx)
  · intro x hx
    exact (hpb x).1 (mem_takeWhile' (List.mem_reverse.1 hx))
  · intro x hx
    rw [← hpb, head_dropWhile hx]
    simp
  · intro x hx
    have hne : r.dropWhile p ≠ [] := by
      intro h; rw [h] at hx; simp at hx
    have hl : r.getLast? = some x := by
      rw [h2, List.getLast?_append, hx]
      rfl
    rw [hr, List.getLast?_reverse] at hl
    rw [← hpb, head_dropWhile hl]
    simp

/-- `Trimmed` determines its result. -/
theorem trimmed_unique {s o o' : Bytes} (h : Trimmed s o) (h' : Trimmed s o') : o = o' := by
  have key : ∀ {s o : Bytes}, Trimmed s o → o = goTrim s := by
    intro s o ⟨a, b, hs, ha, hb, hh, hl⟩
    obtain ⟨p, hp⟩ : ∃ p : Byte → Bool, p = fun b => trimSet.contains b := ⟨_, rfl⟩
    have hpb : ∀ b, p b = true ↔ Blank b := by intro b; rw [hp]; exact blank_iff b
    unfold goTrim
    rw [← hp]
    have d1 : ∀ (x y : Bytes), (∀ c ∈ x, Blank c) → (x ++ y).dropWhile p = y.dropWhile p := by
      intro x y hx
      apply List.dropWhile_append_of_pos
      intro c hc
      exact (hpb c).2 (hx c hc)
    have d2 : ∀ y : Bytes, (∀ c ∈ y.head?, ¬ Blank c) → y.dropWhile p = y := by
      intro y hy
      cases y with
      | nil => rfl
      | cons c y =>
        have := hy c (by simp)
        rw [List.dropWhile_cons_of_neg]
        rw [hpb]; exact this
    rw [hs, List.reverse_append, d1 _ _ (by intro c hc; exact hb c (List.mem_reverse.1 hc))]
    rw [List.reverse_append]
    by_cases ho : o = []
    · subst ho
      rw [List.reverse_nil, List.nil_append]
      have : a.reverse.dropWhile p = [] := by
        have := d1 a.reverse [] (by intro c hc; exact ha c (List.mem_reverse.1 hc))
        simpa using this
      rw [this]
      rfl
    · have e : (o.reverse ++ a.reverse).dropWhile p = o.reverse ++ a.reverse := by
        apply d2
        intro c hc
        apply hl c
        rw [List.head?_append, List.head?_reverse] at hc
        cases hg : o.getLast? with
        | none => exact absurd (List.getLast?_eq_none_iff.1 hg) ho
        | some y => rw [hg] at hc; exact hc
      rw [e, List.reverse_append, List.reverse_reverse, List.reverse_reverse, d1 _ _ ha, d2 _ hh]
  rw [key h, key h']

example : goTrim [0x20, 0x41, 0x20, 0x42, 0x20, 0x00] = [0x41, 0x20, 0x42] := by decide

end Dparm
