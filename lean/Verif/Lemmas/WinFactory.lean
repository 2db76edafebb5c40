import Verif.Spec.WinFactory
import Verif.Lemmas.WinNvme
/-!
# Lemmas: texts and records of the Windows factory
-/
namespace Dparm
open Spec

theorem hexByte_upper (b : Byte) :
    upper (hexByte b) = [(ascii "0123456789ABCDEF").getD (b.toNat / 16) 0, (ascii "0123456789ABCDEF").getD (b.toNat % 16) 0] := by
  have h1 : b.toNat / 16 < 16 := by have := b.isLt; omega
  have h2 : b.toNat % 16 < 16 := Nat.mod_lt _ (by decide)
  have key : ∀ n, n < 16 → (if 0x61#8 ≤ hexUpper n ∧ hexUpper n ≤ 0x7a#8 then hexUpper n - 0x20#8 else hexUpper n) =
      (ascii "0123456789ABCDEF").getD n 0 := by decide
  unfold upper hexByte
  simp only [List.map_cons, List.map_nil, key _ h1, key _ h2]

theorem hexByte_lower (b : Byte) :
    lower (hexByte b) = [(ascii "0123456789abcdef").getD (b.toNat / 16) 0, (ascii "0123456789abcdef").getD (b.toNat % 16) 0] := by
  have h1 : b.toNat / 16 < 16 := by have := b.isLt; omega
  have h2 : b.toNat % 16 < 16 := Nat.mod_lt _ (by decide)
  have key : ∀ n, n < 16 → (if 0x41#8 ≤ hexUpper n ∧ hexUpper n ≤ 0x5a#8 then hexUpper n + 0x20#8 else hexUpper n) =
      (ascii "0123456789abcdef").getD n 0 := by decide
  unfold lower hexByte
  simp only [List.map_cons, List.map_nil, key _ h1, key _ h2]

theorem upper_append (a b : Bytes) : upper (a ++ b) = upper a ++ upper b := List.map_append
theorem lower_append (a b : Bytes) : lower (a ++ b) = lower a ++ lower b := List.map_append

theorem guidText_upper (g : Bytes) : upper (guidText g) = uuidUpper g := by
  have e1 : upper [0x7b#8] = ascii "{" := by decide
  have e2 : upper [0x7d#8] = ascii "}" := by decide
  have e3 : upper [0x2d#8] = ascii "-" := by decide
  unfold guidText uuidUpper uuidWith
  simp only [upper_append, hexByte_upper, e1, e2, e3, List.append_assoc]
  rfl

theorem trimOf_braces (set : Bytes) (a b : Byte) (m : Bytes) (ha : a ∈ set) (hb : b ∈ set)
    (hm : m ≠ []) (h1 : ∀ x ∈ m.head?, x ∉ set) (h2 : ∀ x ∈ m.getLast?, x ∉ set) :
    trimOf set ([a] ++ m ++ [b]) = m := by
  unfold trimOf
  have hc : ∀ x, set.contains x = true ↔ x ∈ set := fun x => List.contains_iff_mem
  obtain ⟨x, xs, rfl⟩ := List.exists_cons_of_ne_nil hm
  have hx : set.contains x = false := by
    rw [Bool.eq_false_iff]; intro h; exact h1 x rfl ((hc x).mp h)
  have e1 : ([a] ++ (x :: xs) ++ [b]).dropWhile (fun c => set.contains c) = (x :: xs) ++ [b] := by
    simp only [List.cons_append, List.nil_append]
    rw [List.dropWhile_cons_of_pos ((hc a).mpr ha), List.dropWhile_cons_of_neg (by rw [hx]; simp)]
  rw [e1, List.reverse_append, List.reverse_singleton, List.singleton_append,
    List.dropWhile_cons_of_pos ((hc b).mpr hb)]
  have hrev : (x :: xs).reverse ≠ [] := by simp
  obtain ⟨y, ys, hy⟩ := List.exists_cons_of_ne_nil hrev
  have hy' : set.contains y = false := by
    rw [Bool.eq_false_iff]; intro h
    refine h2 y ?_ ((hc y).mp h)
    rw [← List.head?_reverse, hy]
    rfl
  rw [hy, List.dropWhile_cons_of_neg (by rw [hy']; simp), ← hy, List.reverse_reverse]

theorem hexUpper_not_brace (n : Nat) (h : n < 16) : hexUpper n ∉ [0x7b#8, 0x7d#8] := by
  have key : ∀ n, n < 16 → hexUpper n ∉ [0x7b#8, 0x7d#8] := by decide
  exact key n h

theorem guidText_lower (g : Bytes) : lower (trimOf [0x7b#8, 0x7d#8] (guidText g)) = uuidLower g := by
  obtain ⟨m, hm⟩ : ∃ m, m =
      hexByte (g.getD 3 0#8) ++ hexByte (g.getD 2 0#8) ++ hexByte (g.getD 1 0#8) ++ hexByte (g.getD 0 0#8) ++ [0x2d#8] ++
      hexByte (g.getD 5 0#8) ++ hexByte (g.getD 4 0#8) ++ [0x2d#8] ++ hexByte (g.getD 7 0#8) ++ hexByte (g.getD 6 0#8) ++
      [0x2d#8] ++ hexByte (g.getD 8 0#8) ++ hexByte (g.getD 9 0#8) ++ [0x2d#8] ++ hexByte (g.getD 10 0#8) ++
      hexByte (g.getD 11 0#8) ++ hexByte (g.getD 12 0#8) ++ hexByte (g.getD 13 0#8) ++ hexByte (g.getD 14 0#8) ++
      hexByte (g.getD 15 0#8) := ⟨_, rfl⟩
  have hg : guidText g = [0x7b#8] ++ m ++ [0x7d#8] := by
    rw [hm]; unfold guidText; simp only [List.append_assoc]
  have hlt : ∀ b : Byte, b.toNat / 16 < 16 := fun b => by have := b.isLt; omega
  have hmod : ∀ b : Byte, b.toNat % 16 < 16 := fun b => Nat.mod_lt _ (by decide)
  have htrim : trimOf [0x7b#8, 0x7d#8] (guidText g) = m := by
    rw [hg]
    refine trimOf_braces _ _ _ _ (by decide) (by decide) (by rw [hm]; simp [hexByte]) ?_ ?_
    · intro x hx
      rw [hm] at hx
      simp only [hexByte, List.cons_append, List.nil_append, List.head?_cons, Option.mem_def, Option.some.injEq] at hx
      rw [← hx]
      exact hexUpper_not_brace _ (hlt _)
    · intro x hx
      rw [hm, List.getLast?_append] at hx
      simp only [hexByte, List.getLast?_cons_cons, List.getLast?_singleton, Option.some_or, Option.mem_def,
        Option.some.injEq] at hx
      rw [← hx]
      exact hexUpper_not_brace _ (hmod _)
  rw [htrim, hm]
  have e3 : lower [0x2d#8] = ascii "-" := by decide
  unfold uuidLower uuidWith
  simp only [lower_append, hexByte_lower, e3, List.append_assoc]
  rfl

/-! ### Fetching -/

theorem winReadIoctl_run (h code : Nat) (inb : Bytes) (env : Prog.Env WReq WRep) (hist : Prog.Trace WReq WRep) :
    ∃ t f, Fetched h code inb t f ∧ OutT.run env hist (winReadIoctl h code inb) =
      (match f with
        | .data buf k => .ret (.ok (buf, k))
        | .failed e => .ret (.err e)
        | .crashed => .panic, t) := by
  unfold winReadIoctl
  rw [OutT.run_ask_bind]
  obtain ⟨r, hr⟩ : ∃ r, r = env hist (.ioctl h code inb 4096 none) := ⟨_, rfl⟩
  rw [← hr]
  cases he : r.err with
  | none =>
    by_cases hn : r.n > 4096
    · refine ⟨_, _, .crashed r (.inl ⟨he, hn⟩), ?_⟩
      simp only [he]
      rw [if_pos hn]; rfl
    · refine ⟨_, _, .once r he (by omega), ?_⟩
      simp only [he]
      rw [if_neg hn]; simp [storeInto_delivered]
  | some e =>
    simp only [he]
    by_cases h122 : e = .errno 122
    · rw [if_pos h122]
      subst h122
      by_cases hn : r.n = 0
      · refine ⟨_, _, .crashed r (.inr ⟨he, hn⟩), ?_⟩
        rw [if_pos hn]; rfl
      · rw [if_neg hn, OutT.run_ask_bind]
        obtain ⟨r2, hr2⟩ : ∃ r2, r2 = env (hist ++ [(.ioctl h code inb 4096 none, r)]) (.ioctl h code inb r.n none) :=
          ⟨_, rfl⟩
        rw [← hr2]
        cases he2 : r2.err with
        | some e =>
          refine ⟨_, _, .againFailed r r2 e he hn he2, ?_⟩
          simp only [he2, OutT.run_ret]
        | none =>
          simp only [he2]
          by_cases hk : r2.n > r.n
          · refine ⟨_, _, .againCrashed r r2 he hn he2 hk, ?_⟩
            rw [if_pos hk]; rfl
          · refine ⟨_, _, .again r r2 he hn he2 (by omega), ?_⟩
            rw [if_neg hk]; simp [storeInto_delivered]
    · refine ⟨_, _, .failed r e he h122, ?_⟩
      rw [if_neg h122]; rfl

end Dparm
