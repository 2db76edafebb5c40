import Verif.Model.Discovery
import Verif.Spec.Discovery
import Verif.Lemmas.Numbers
import Verif.Lemmas.Lists
/-!
# Lemmas on the discovery walk
-/
namespace Dparm
open Spec

theorem isDescriptor_length {d : Bytes} (h : IsDescriptor d) : d.length = (d.getD 3 0).toNat + 4 ∧ 4 ≤ d.length := by
  obtain ⟨a, b, v, n, body, rfl, hb⟩ := h
  simp [hb]

theorem isDescriptor_of {d : Bytes} (h : 4 ≤ d.length) (hl : d.length = (d.getD 3 0).toNat + 4) :
    IsDescriptor d := by
  match d, h with
  | a :: b :: v :: n :: body, _ => exact ⟨a, b, v, n, body, rfl, by simpa using hl⟩

theorem prefix_getD {d l : Bytes} (h : d <+: l) (i : Nat) (hi : i < d.length) : d.getD i 0 = l.getD i 0 := by
  obtain ⟨t, rfl⟩ := h
  simp [List.getElem?_append_left hi]

theorem descriptor_unique {d e l : Bytes} (hd : IsDescriptor d) (he : IsDescriptor e) (h1 : d <+: l) (h2 : e <+: l) :
    d = e := by
  obtain ⟨a1, a2⟩ := isDescriptor_length hd
  obtain ⟨b1, b2⟩ := isDescriptor_length he
  have : d.length = e.length := by
    rw [a1, b1, prefix_getD h1 3 (by omega), prefix_getD h2 3 (by omega)]
  exact (List.prefix_of_prefix_length_le h1 h2 (by omega)).eq_of_length this

theorem prefix_append_iff {d x l : Bytes} : d ++ x <+: l ↔ d <+: l ∧ x <+: l.drop d.length := by
  constructor
  · rintro ⟨t, rfl⟩
    refine ⟨⟨x ++ t, by simp⟩, ⟨t, by simp⟩⟩
  · rintro ⟨⟨t, rfl⟩, ⟨u, hu⟩⟩
    refine ⟨u, ?_⟩
    have : x ++ u = t := by simpa using hu
    rw [← this]; simp

theorem cut_nil {buf : Bytes} {s e : Nat} : Cut buf s e [] ↔ e ≤ s := by
  unfold Cut
  constructor
  · rintro ⟨_, _, h, _⟩; simpa using h
  · intro h
    refine ⟨by simp, by simp, by simpa using h, ?_⟩
    intro f l hh; simp at hh

theorem cut_cons {buf d : Bytes} {s e : Nat} {ds : List Bytes} :
    Cut buf s e (d :: ds) ↔ s < e ∧ IsDescriptor d ∧ d <+: buf.drop s ∧ Cut buf (s + d.length) e ds := by
  unfold Cut
  simp only [List.mem_cons, forall_eq_or_imp, List.flatten_cons, List.length_append, prefix_append_iff,
    List.drop_drop]
  constructor
  · rintro ⟨⟨h1, h2⟩, ⟨h3, h4⟩, h5, h6⟩
    refine ⟨?_, h1, h3, h2, h4, by omega, ?_⟩
    · cases ds with
      | nil => simpa using h6 [] d (by simp)
      | cons x xs =>
        have hne : x :: xs ≠ [] := by simp
        have := h6 (d :: (x :: xs).dropLast) ((x :: xs).getLast hne) (by
          rw [List.cons_append, List.dropLast_concat_getLast])
        have h0 : 0 ≤ (d :: (x :: xs).dropLast).flatten.length := by omega
        omega
    · intro f l hl
      have := h6 (d :: f) l (by rw [hl]; rfl)
      simp only [List.flatten_cons, List.length_append] at this
      omega
  · rintro ⟨h0, h1, h3, h2, h4, h5, h6⟩
    refine ⟨⟨h1, h2⟩, ⟨h3, h4⟩, by omega, ?_⟩
    intro f l hl
    cases f with
    | nil => simpa using h0
    | cons x xs =>
      simp only [List.cons_append, List.cons.injEq] at hl
      have := h6 xs l hl.2
      rw [← hl.1]
      simp only [List.flatten_cons, List.length_append]
      omega

theorem cut_unique {buf : Bytes} {e : Nat} {ds es : List Bytes} : ∀ {s : Nat}, Cut buf s e ds → Cut buf s e es →
    ds = es := by
  induction ds generalizing es with
  | nil =>
    intro s h1 h2
    cases es with
    | nil => rfl
    | cons d es => rw [cut_nil] at h1; rw [cut_cons] at h2; omega
  | cons d ds ih =>
    intro s h1 h2
    cases es with
    | nil => rw [cut_nil] at h2; rw [cut_cons] at h1; omega
    | cons d' es =>
      rw [cut_cons] at h1 h2
      have : d = d' := descriptor_unique h1.2.1 h2.2.1 h1.2.2.1 h2.2.2.1
      subst this
      rw [ih h1.2.2.2 h2.2.2.2]

theorem overruns_step {buf d : Bytes} {s e : Nat} (hd : IsDescriptor d) (hp : d <+: buf.drop s) :
    Overruns buf s e ↔ Overruns buf (s + d.length) e := by
  constructor
  · rintro ⟨front, h1, h2, h3, h4⟩
    cases front with
    | nil => exact absurd hp (by simpa using h4 d hd)
    | cons x xs =>
      simp only [List.flatten_cons, prefix_append_iff, List.drop_drop, List.length_append] at h2 h3 h4
      have : x = d := descriptor_unique (h1 x (by simp)) hd h2.1 hp
      subst this
      refine ⟨xs, fun y hy => h1 y (by simp [hy]), h2.2, by omega, ?_⟩
      intro y hy
      have := h4 y hy
      rwa [← Nat.add_assoc] at this
  · rintro ⟨front, h1, h2, h3, h4⟩
    refine ⟨d :: front, ?_, ?_, ?_, ?_⟩
    · intro y hy
      rcases List.mem_cons.1 hy with rfl | hy
      · exact hd
      · exact h1 y hy
    · simp only [List.flatten_cons, prefix_append_iff, List.drop_drop]
      exact ⟨hp, h2⟩
    · simp only [List.flatten_cons, List.length_append]; omega
    · intro y hy
      simp only [List.flatten_cons, List.length_append, ← Nat.add_assoc]
      exact h4 y hy

theorem cut_not_overruns {buf : Bytes} {e : Nat} {ds : List Bytes} : ∀ {s : Nat}, Cut buf s e ds → ¬ Overruns buf s e := by
  induction ds with
  | nil =>
    intro s h
    rw [cut_nil] at h
    rintro ⟨front, _, _, h3, _⟩
    omega
  | cons d ds ih =>
    intro s h
    rw [cut_cons] at h
    rw [overruns_step h.2.1 h.2.2.1]
    exact ih h.2.2.2

/-- What the walk learns from descriptors at `off`. -/
def learn (buf : Bytes) (behind : Nat → Byte) : Nat → Level0 → List Bytes → Level0
  | _, info, [] => info
  | off, info, d :: ds =>
    learn buf behind (off + d.length)
      ((info.mark (BitVec.ofNat 16 (descCode d))).put (BitVec.ofNat 16 (descCode d))
        (rawItem buf behind off d.length)) ds

theorem mark_made (i : Level0) (fc : BitVec 16) : (i.mark fc).made = i.made ∧ (i.mark fc).raw = i.raw := by
  unfold Level0.mark
  repeat' split
  all_goals exact ⟨rfl, rfl⟩

theorem unionCopy_head {u buf : Bytes} {off : Nat} (h : off + 4 ≤ buf.length) (hu : u.length = 16) :
    slice (unionCopy u buf off) 0 2 = (buf.drop off).take 2 ∧
    (unionCopy u buf off).getD 3 0 = (buf.drop off).getD 3 0 ∧ (unionCopy u buf off).length = 16 := by
  have hl : 4 ≤ (buf.drop off).length := by rw [List.length_drop]; omega
  match hm : buf.drop off, hl with
  | a :: b :: c :: d :: rest, _ =>
    refine ⟨?_, ?_, ?_⟩
    · simp [unionCopy, hm, slice]
    · simp [unionCopy, hm]
    · simp [unionCopy, hm, hu]; omega

theorem unionCopy_length {u buf : Bytes} {off : Nat} (hu : u.length = 16) : (unionCopy u buf off).length = 16 := by
  simp only [unionCopy, List.length_append, List.length_take, List.length_drop, hu]; omega

/-- The walk: it either overruns and panics, or it learns exactly the descriptors. -/
theorem walk_spec (buf : Bytes) (behind : Nat → Byte) (e : Nat) :
    ∀ (off : Nat) (u : Bytes) (info : Level0), u.length = 16 → info.made = true →
    (Overruns buf off e ∧ discoveryWalk buf behind e off u info = .panic) ∨
    (∃ ds, Cut buf off e ds ∧ discoveryWalk buf behind e off u info = .ret (learn buf behind off info ds)) := by
  intro off
  induction hk : e - off using Nat.strongRecOn generalizing off with
  | _ k ih =>
    intro u info hu hm
    rw [discoveryWalk]
    by_cases h : off < e
    · rw [if_pos h]
      simp only
      have hover : ∀ (hn : ¬ ∃ d, IsDescriptor d ∧ d <+: buf.drop off), Overruns buf off e := by
        intro hn
        refine ⟨[], by simp, by simp, by simpa using h, ?_⟩
        intro d hd hp
        exact hn ⟨d, hd, by simpa using hp⟩
      by_cases h4 : off + 4 ≤ buf.length
      · obtain ⟨u1, u2, u3⟩ := unionCopy_head h4 hu
        obtain ⟨n, hn⟩ : ∃ n, n = ((buf.drop off).getD 3 0).toNat := ⟨_, rfl⟩
        rw [u1, u2, ← hn]
        by_cases hfit : off + n + 4 > buf.length
        · left
          rw [if_pos hfit]
          refine ⟨hover ?_, rfl⟩
          rintro ⟨d, hd, hp⟩
          obtain ⟨a1, a2⟩ := isDescriptor_length hd
          have hle := hp.length_le
          rw [List.length_drop] at hle
          rw [prefix_getD hp 3 (by omega), ← hn] at a1
          omega
        · rw [if_neg hfit]
          obtain ⟨d, hd⟩ : ∃ d, d = slice buf off (n + 4) := ⟨_, rfl⟩
          have hdl : d.length = n + 4 := by
            rw [hd]; unfold slice; rw [List.length_take, List.length_drop]; omega
          have hdp : d <+: buf.drop off := by rw [hd]; unfold slice; exact List.take_prefix _ _
          have hdd : IsDescriptor d := isDescriptor_of (by omega) (by
            rw [hdl, prefix_getD hdp 3 (by omega), ← hn])
          have hcode : beVal ((buf.drop off).take 2) = descCode d := by
            unfold descCode
            obtain ⟨t, ht⟩ := hdp
            rw [← ht, List.take_append_of_le_length (by omega)]
          have hoff : off + n + 4 = off + d.length := by omega
          rw [hcode, hoff, ← hdl]
          obtain ⟨m1, m2⟩ := mark_made info (BitVec.ofNat 16 (descCode d))
          simp only [Level0.store, m1, hm, if_true]
          obtain ⟨i', hi'⟩ : ∃ i' : Level0, i' = (info.mark (BitVec.ofNat 16 (descCode d))).put
            (BitVec.ofNat 16 (descCode d)) (rawItem buf behind off d.length) := ⟨_, rfl⟩
          rw [← hi']
          have hmade : i'.made = true := by rw [hi', ← hm, ← m1]; rfl
          rcases ih (e - (off + d.length)) (by omega) (off + d.length) rfl _ i' u3 hmade with
            ⟨o, w⟩ | ⟨ds, c, w⟩
          · left
            exact ⟨(overruns_step hdd hdp).2 o, w⟩
          · right
            refine ⟨d :: ds, cut_cons.2 ⟨h, hdd, hdp, c⟩, ?_⟩
            rw [w, hi']
            rfl
      · left
        refine ⟨hover ?_, ?_⟩
        · rintro ⟨d, hd, hp⟩
          obtain ⟨a1, a2⟩ := isDescriptor_length hd
          have hle := hp.length_le
          rw [List.length_drop] at hle
          omega
        · rw [if_pos (by omega)]
    · rw [if_neg h]
      right
      exact ⟨[], cut_nil.2 (by omega), rfl⟩


theorem descCode_lt (d : Bytes) : descCode d < 65536 := by
  have h := beVal_lt (d.take 2)
  have : 256 ^ (d.take 2).length ≤ 256 ^ 2 := Nat.pow_le_pow_right (by decide) (by simp; omega)
  unfold descCode
  omega

theorem ofNat16_inj {n k : Nat} (hn : n < 65536) (hk : k < 65536) :
    (BitVec.ofNat 16 n = BitVec.ofNat 16 k) ↔ n = k := by
  constructor
  · intro h
    have := congrArg BitVec.toNat h
    simp only [BitVec.toNat_ofNat] at this
    omega
  · intro h; rw [h]

/-- The flags as functions. -/
def flagFns : List (Nat × (Level0 → Bool)) :=
  [(0x0001, Level0.tper), (0x0002, Level0.locking), (0x0003, Level0.geometry), (0x0200, Level0.opalV100),
   (0x0203, Level0.opalV200), (0x0100, Level0.enterprise), (0x0201, Level0.singleUser), (0x0202, Level0.dataStore)]

theorem flags_eq (i : Level0) : flags i = flagFns.map (fun p => (p.1, p.2 i)) := rfl

theorem mem_flags {i : Level0} {c : Nat} {b : Bool} :
    (c, b) ∈ flags i ↔ ∃ p ∈ flagFns, p.1 = c ∧ p.2 i = b := by
  rw [flags_eq]
  simp only [List.mem_map, Prod.mk.injEq]

theorem flagFns_unique {p q : Nat × (Level0 → Bool)} (hp : p ∈ flagFns) (hq : q ∈ flagFns) (h : p.1 = q.1) :
    p = q := by
  simp only [flagFns, List.mem_cons, List.not_mem_nil, or_false] at hp hq
  rcases hp with rfl | rfl | rfl | rfl | rfl | rfl | rfl | rfl <;>
    rcases hq with rfl | rfl | rfl | rfl | rfl | rfl | rfl | rfl <;>
    first | rfl | (exfalso; revert h; decide)

theorem mark_flag (p : Nat × (Level0 → Bool)) (hp : p ∈ flagFns) (i : Level0) (n : Nat) (hn : n < 65536) :
    p.2 (i.mark (BitVec.ofNat 16 n)) = (p.2 i || n == p.1) := by
  have key : ∀ k : Nat, k < 65536 → ((BitVec.ofNat 16 n = BitVec.ofNat 16 k) ↔ n = k) := fun k hk => ofNat16_inj hn hk
  have e1 : (BitVec.ofNat 16 n = FcTPer) ↔ n = 1 := key 1 (by decide)
  have e2 : (BitVec.ofNat 16 n = FcLocking) ↔ n = 2 := key 2 (by decide)
  have e3 : (BitVec.ofNat 16 n = FcGeometryReporting) ↔ n = 3 := key 3 (by decide)
  have e4 : (BitVec.ofNat 16 n = FcOpalSscV100) ↔ n = 0x200 := key 0x200 (by decide)
  have e5 : (BitVec.ofNat 16 n = FcOpalSscV200) ↔ n = 0x203 := key 0x203 (by decide)
  have e6 : (BitVec.ofNat 16 n = FcEnterprise) ↔ n = 0x100 := key 0x100 (by decide)
  have e7 : (BitVec.ofNat 16 n = FcSingleUser) ↔ n = 0x201 := key 0x201 (by decide)
  have e8 : (BitVec.ofNat 16 n = FcDataStore) ↔ n = 0x202 := key 0x202 (by decide)
  unfold Level0.mark
  simp only [e1, e2, e3, e4, e5, e6, e7, e8]
  clear e1 e2 e3 e4 e5 e6 e7 e8 key
  simp only [flagFns, List.mem_cons, List.not_mem_nil, or_false] at hp
  rcases hp with rfl | rfl | rfl | rfl | rfl | rfl | rfl | rfl <;>
    (repeat' split) <;> first | (subst_vars; simp; done) | (simp [*]; done)

theorem put_flag (p : Nat × (Level0 → Bool)) (hp : p ∈ flagFns) (i : Level0) (c : BitVec 16) (f : RawFeat) :
    p.2 (i.put c f) = p.2 i := by
  simp only [flagFns, List.mem_cons, List.not_mem_nil, or_false] at hp
  rcases hp with rfl | rfl | rfl | rfl | rfl | rfl | rfl | rfl <;> rfl

theorem learn_flag (buf : Bytes) (behind : Nat → Byte) (p : Nat × (Level0 → Bool)) (hp : p ∈ flagFns)
    (ds : List Bytes) : ∀ (off : Nat) (i : Level0),
    (p.2 (learn buf behind off i ds) = true ↔ p.2 i = true ∨ Reports ds p.1) := by
  induction ds with
  | nil => intro off i; simp [learn, Reports]
  | cons d ds ih =>
    intro off i
    rw [learn, ih, put_flag p hp, mark_flag p hp _ _ (descCode_lt d)]
    simp [Reports, or_assoc]

theorem learn_made (buf : Bytes) (behind : Nat → Byte) (ds : List Bytes) : ∀ (off : Nat) (i : Level0),
    (learn buf behind off i ds).made = i.made := by
  induction ds with
  | nil => intro off i; rfl
  | cons d ds ih =>
    intro off i
    rw [learn, ih]
    exact (mark_made i _).1

theorem lastWith_cons (d : Bytes) (ds : List Bytes) (c : Nat) :
    lastWith (d :: ds) c = match lastWith ds c with
      | some e => some e
      | none => if descCode d = c then some d else none := by
  unfold lastWith
  by_cases h : descCode d = c
  · rw [List.filter_cons_of_pos (by simpa using h), List.getLast?_cons]
    cases (ds.filter (fun d => descCode d == c)).getLast? <;> simp [h]
  · rw [List.filter_cons_of_neg (by simpa using h)]
    cases (ds.filter (fun d => descCode d == c)).getLast? <;> simp [h]

theorem lastWith_eq_none {ds : List Bytes} {c : Nat} : lastWith ds c = none ↔ ¬ Reports ds c := by
  simp [lastWith, Reports]

theorem lastWith_mem {ds : List Bytes} {c : Nat} {d : Bytes} (h : lastWith ds c = some d) :
    d ∈ ds ∧ descCode d = c := by
  have := List.mem_of_getLast? h
  simpa using this

/-- The stored item for a descriptor is the descriptor. -/
theorem rawItem_data {buf d : Bytes} {behind : Nat → Byte} {off : Nat} (h : d <+: buf.drop off) :
    (rawItem buf behind off d.length).data = d := by
  obtain ⟨t, ht⟩ := h
  show slice buf off d.length = d
  unfold slice
  rw [← ht, List.take_left]

theorem learn_raw {buf : Bytes} {behind : Nat → Byte} {e : Nat} {ds : List Bytes} :
    ∀ {off : Nat} {i : Level0} (_ : Cut buf off e ds) (c : BitVec 16),
    (lastWith ds c.toNat = none → (learn buf behind off i ds).raw c = i.raw c) ∧
    (∀ d, lastWith ds c.toNat = some d → ∃ pos, (learn buf behind off i ds).raw c =
      some (rawItem buf behind pos d.length) ∧ d <+: buf.drop pos ∧ off ≤ pos) := by
  induction ds with
  | nil =>
    intro off i _ c
    refine ⟨fun _ => rfl, ?_⟩
    intro d h
    simp [lastWith] at h
  | cons d ds ih =>
    intro off i hc c
    rw [cut_cons] at hc
    obtain ⟨h1, h2, h3, h4⟩ := hc
    obtain ⟨a1, a2⟩ := ih (i := (i.mark (BitVec.ofNat 16 (descCode d))).put (BitVec.ofNat 16 (descCode d))
        (rawItem buf behind off d.length)) h4 c
    have hraw : ((i.mark (BitVec.ofNat 16 (descCode d))).put (BitVec.ofNat 16 (descCode d))
        (rawItem buf behind off d.length)).raw c =
        if c = BitVec.ofNat 16 (descCode d) then some (rawItem buf behind off d.length) else i.raw c := by
      show (if c = _ then _ else (i.mark _).raw c) = _
      rw [(mark_made i _).2]
    have hcc : (c = BitVec.ofNat 16 (descCode d)) ↔ descCode d = c.toNat := by
      have hlt := descCode_lt d
      constructor
      · intro h; rw [h, BitVec.toNat_ofNat]; omega
      · intro h; rw [h]; simp
    rw [lastWith_cons]
    rw [learn]
    constructor
    · intro h
      split at h
      · exact absurd h (by simp)
      · rename_i hn
        rw [a1 hn, hraw, if_neg]
        rw [hcc]
        intro hh
        rw [if_pos hh] at h
        exact absurd h (by simp)
    · intro x h
      split at h
      · rename_i y hy
        obtain ⟨pos, p1, p2, p3⟩ := a2 y hy
        simp only [Option.some.injEq] at h
        subst h
        exact ⟨pos, p1, p2, by omega⟩
      · rename_i hn
        by_cases hh : descCode d = c.toNat
        · rw [if_pos hh] at h
          simp only [Option.some.injEq] at h
          subst h
          exact ⟨off, by rw [a1 hn, hraw, if_pos (hcc.2 hh)], h3, Nat.le_refl _⟩
        · rw [if_neg hh] at h
          exact absurd h (by simp)

end Dparm
