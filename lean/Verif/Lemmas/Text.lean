import Verif.Model.Factory
import Verif.Spec.DriveInfo
/-!
# Lemmas about the Go string functions
-/
namespace Dparm

theorem cut_found (a b : Bytes) (c : Byte) (h : c ∉ a) : cut (a ++ c :: b) c = (a, b, true) := by
  induction a with
  | nil => simp [cut]
  | cons x xs ih =>
    simp only [List.mem_cons, not_or] at h
    rw [List.cons_append, cut, if_neg (fun hh => h.1 hh.symm), ih h.2]

theorem cut_none (s : Bytes) (c : Byte) (h : c ∉ s) : cut s c = (s, [], false) := by
  induction s with
  | nil => rfl
  | cons x xs ih =>
    simp only [List.mem_cons, not_or] at h
    rw [cut, if_neg (fun hh => h.1 hh.symm), ih h.2]

theorem findIdx?_not_mem (s : Bytes) (c : Byte) (h : c ∉ s) : s.findIdx? (· == c) = none := by
  rw [List.findIdx?_eq_none_iff]
  intro x hx
  simp only [beq_eq_false_iff_ne, ne_eq]
  rintro rfl
  exact h hx

theorem lastIndex_none (s : Bytes) (c : Byte) (h : c ∉ s) : lastIndex s c = -1 := by
  unfold lastIndex
  rw [findIdx?_not_mem _ _ (by simpa using h)]

theorem findIdx?_first (a b : Bytes) (c : Byte) (h : c ∉ a) :
    (a ++ c :: b).findIdx? (· == c) = some a.length := by
  induction a with
  | nil => simp [List.findIdx?_cons]
  | cons x xs ih =>
    simp only [List.mem_cons, not_or] at h
    rw [List.cons_append, List.findIdx?_cons, if_neg (by simpa using Ne.symm h.1), ih h.2]
    rfl

theorem lastIndex_found (a b : Bytes) (c : Byte) (h : c ∉ b) : lastIndex (a ++ c :: b) c = a.length := by
  unfold lastIndex
  have : (a ++ c :: b).reverse = b.reverse ++ c :: a.reverse := by simp
  rw [this, findIdx?_first _ _ _ (by simpa using h)]
  simp
  omega

/-- Every text is split by the last occurrence of a byte, or does not contain it. -/
theorem split_last (s : Bytes) (c : Byte) : c ∉ s ∨ ∃ a b, s = a ++ c :: b ∧ c ∉ b := by
  induction s with
  | nil => left; simp
  | cons x xs ih =>
    rcases ih with h | ⟨a, b, rfl, hb⟩
    · by_cases hx : c = x
      · right; exact ⟨[], xs, by rw [hx]; rfl, h⟩
      · left; simp [hx, h]
    · right; exact ⟨x :: a, b, rfl, hb⟩

/-- Every text is split by the first occurrence of a byte, or does not contain it. -/
theorem split_first (s : Bytes) (c : Byte) : c ∉ s ∨ ∃ a b, s = a ++ c :: b ∧ c ∉ a := by
  induction s with
  | nil => left; simp
  | cons x xs ih =>
    by_cases hx : c = x
    · right; exact ⟨[], xs, by rw [hx]; rfl, by simp⟩
    · rcases ih with h | ⟨a, b, rfl, hb⟩
      · left; simp [hx, h]
      · right; exact ⟨x :: a, b, rfl, by simp [hx, hb]⟩

/-- The text before the first separator, or the whole text. -/
theorem cut_snd (pre : Bytes) :
    (∃ bus, pre = bus ++ 0x2d#8 :: (cut pre 0x2d#8).2.1 ∧ 0x2d#8 ∉ bus) ∨ (0x2d#8 ∉ pre ∧ (cut pre 0x2d#8).2.1 = []) := by
  rcases split_first pre 0x2d#8 with h | ⟨a, b, rfl, h⟩
  · right; rw [cut_none _ _ h]; exact ⟨h, rfl⟩
  · left; rw [cut_found _ _ _ h]; exact ⟨a, rfl, h⟩

theorem isWord_iff (c : Byte) : isWord c = true ↔ WordByte c := by
  unfold isWord WordByte
  simp only [Bool.or_eq_true, decide_eq_true_eq, BitVec.le_def, BitVec.toNat_ofNat]
  have : c = 0x5f#8 ↔ c.toNat = 0x5f := by
    rw [← BitVec.toNat_inj]; rfl
  rw [this]
  simp only [Nat.reducePow, Nat.reduceMod]
  omega

theorem dropWhile_word (w rest : Bytes) (h : ∀ c ∈ w, isWord c = true) (h2 : ∀ c, rest.head? = some c → isWord c = false) :
    (w ++ rest).dropWhile isWord = rest := by
  induction w with
  | nil =>
    cases rest with
    | nil => rfl
    | cons x xs => rw [List.nil_append, List.dropWhile_cons, if_neg (by simp [h2 x rfl])]
  | cons x xs ih =>
    rw [List.cons_append, List.dropWhile_cons, if_pos (h x (by simp))]
    exact ih (fun c hc => h c (by simp [hc]))

theorem nvmeDotHere_iff (s : Bytes) :
    nvmeDotHere s = true ↔ ∃ w b, s = ascii "nvme-" ++ w ++ 0x2e#8 :: b ∧ ∀ c ∈ w, isWord c = true := by
  unfold nvmeDotHere hasPrefix
  rw [Bool.and_eq_true, List.isPrefixOf_iff_prefix]
  have h5 : (ascii "nvme-").length = 5 := by decide
  constructor
  · rintro ⟨⟨t, rfl⟩, h⟩
    have hd : (ascii "nvme-" ++ t).drop 5 = t := by rw [← h5, List.drop_left]
    rw [hd] at h
    simp only [beq_iff_eq] at h
    refine ⟨t.takeWhile isWord, (t.dropWhile isWord).tail, ?_, ?_⟩
    · have e1 : t = t.takeWhile isWord ++ t.dropWhile isWord := (List.takeWhile_append_dropWhile).symm
      have e2 : t.dropWhile isWord = 0x2e#8 :: (t.dropWhile isWord).tail := by
        cases hh : t.dropWhile isWord with
        | nil => rw [hh] at h; simp at h
        | cons x xs => rw [hh] at h; simp at h; rw [h]; rfl
      rw [List.append_assoc, ← e2, ← e1]
    · intro c hc
      exact List.all_eq_true.mp (List.all_takeWhile (l := t) (p := isWord)) c hc
  · rintro ⟨w, b, rfl, hw⟩
    refine ⟨⟨w ++ 0x2e#8 :: b, by simp⟩, ?_⟩
    have hd : (ascii "nvme-" ++ w ++ 0x2e#8 :: b).drop 5 = w ++ 0x2e#8 :: b := by
      rw [List.append_assoc, ← h5, List.drop_left]
    rw [hd, dropWhile_word _ _ hw (by intro c hc; simp at hc; subst hc; decide)]
    rfl

theorem nvmeDot_iff (s : Bytes) :
    nvmeDot s = true ↔ ∃ a w b, s = a ++ ascii "nvme-" ++ w ++ 0x2e#8 :: b ∧ ∀ c ∈ w, WordByte c := by
  have conv : ∀ w : Bytes, (∀ c ∈ w, WordByte c) ↔ (∀ c ∈ w, isWord c = true) := by
    intro w; constructor <;> intro h c hc
    · exact (isWord_iff c).mpr (h c hc)
    · exact (isWord_iff c).mp (h c hc)
  simp only [conv]
  induction s with
  | nil =>
    rw [nvmeDot, nvmeDotHere_iff]
    constructor
    · rintro ⟨w, b, h, _⟩
      have := congrArg List.length h
      simp at this
    · rintro ⟨a, w, b, h, _⟩
      have := congrArg List.length h
      simp at this
  | cons x xs ih =>
    rw [nvmeDot, Bool.or_eq_true, nvmeDotHere_iff]
    constructor
    · rintro (⟨w, b, h, hw⟩ | h2)
      · exact ⟨[], w, b, by simpa using h, hw⟩
      · obtain ⟨a, w, b, h, hw⟩ := ih.mp h2
        exact ⟨x :: a, w, b, by rw [h]; rfl, hw⟩
    · rintro ⟨a, w, b, h, hw⟩
      cases a with
      | nil => left; exact ⟨w, b, by simpa using h, hw⟩
      | cons y a =>
        simp only [List.cons_append, List.cons.injEq] at h
        right; exact ih.mpr ⟨a, w, b, h.2, hw⟩

end Dparm
