import Verif.Lemmas.Handle
import Verif.Spec.Nvme
/-!
# Lemmas about the NVMe model
-/
namespace Dparm
open Spec

theorem storeInto_delivered (m got : Bytes) : storeInto m got = delivered m got := by
  unfold storeInto copyAt delivered
  simp

theorem delivered_length (m got : Bytes) : (delivered m got).length = m.length := by
  rw [← storeInto_delivered]; exact storeInto_length _ _

theorem afterStores_cons (b d : Bytes) (rs : List Bytes) :
    afterStores b (d :: rs) = afterStores (delivered b d) rs := rfl

theorem afterStores_length (b : Bytes) (rs : List Bytes) : (afterStores b rs).length = b.length := by
  induction rs generalizing b with
  | nil => rfl
  | cons d rs ih => rw [afterStores_cons, ih, delivered_length]

/-- `a * 2^i` and a number below `2^i` share no bits. -/
theorem or_mul_two_pow (a b i : Nat) (h : b < 2 ^ i) : b ||| a * 2 ^ i = a * 2 ^ i + b := by
  rw [Nat.or_comm, Nat.mul_comm a, ← Nat.two_pow_add_eq_or_of_lt h]

theorem toNat_shl (n k : Nat) (x : BitVec n) (h : x.toNat * 2 ^ k < 2 ^ n) : (x <<< k).toNat = x.toNat * 2 ^ k := by
  rw [BitVec.toNat_shiftLeft, Nat.shiftLeft_eq, Nat.mod_eq_of_lt h]

/-- All runs of the log page loop from an offset on: `tr` are the attempts made. -/
theorem logPageLoop_run (nsid logId : BitVec 32) (rae : Bool) (size : Nat) (env : Prog.Env DrvReq DrvRep) :
    ∀ (n offset : Nat) (buf : Bytes) (last : Option GoErr) (hist : Prog.Trace DrvReq DrvRep), size - offset ≤ n →
    buf.length = size →
    ∃ (out : Bytes) (e : Option GoErr) (tr : Prog.Trace DrvReq DrvRep),
      OutT.run env hist (logPageLoop nsid logId rae size offset buf last) = (.ret (out, e), tr) ∧
      (∀ (i : Nat) (x : DrvReq × DrvRep), tr[i]? = some x →
        x.1 = .nvmeAdmin (logPageCmd nsid logId rae size (afterStores buf ((tr.take i).map (fun y => y.2.data))))) ∧
      (∀ (i : Nat) (x : DrvReq × DrvRep), tr[i]? = some x → x.2 = env (hist ++ tr.take i) x.1) ∧
      out = afterStores buf (tr.map (fun y => y.2.data)) ∧
      (∀ (i : Nat) (x : DrvReq × DrvRep), tr[i]? = some x → i + 1 < tr.length → x.2.err ≠ none) ∧
      tr.length ≤ (size - offset + 4095) / 4096 ∧
      (offset < size → tr ≠ []) ∧
      (tr = [] → e = last) ∧
      (∀ x, tr.getLast? = some x → e = x.2.err) ∧
      ((∀ x ∈ tr, x.2.err ≠ none) → tr.length = (size - offset + 4095) / 4096) := by
  intro n
  induction n with
  | zero =>
    intro offset buf last hist hn hb
    have ho : offset ≥ size := by omega
    refine ⟨buf, last, [], ?_, ?_, ?_, rfl, ?_, ?_, ?_, ?_, ?_, ?_⟩
    · rw [logPageLoop, dif_pos ho]; rfl
    · intro i x h; simp at h
    · intro i x h; simp at h
    · intro i x h; simp at h
    · simp
    · omega
    · intro _; rfl
    · intro x h; simp at h
    · intro _; simp; omega
  | succ n ih =>
    intro offset buf last hist hn hb
    by_cases ho : offset ≥ size
    · refine ⟨buf, last, [], ?_, ?_, ?_, rfl, ?_, ?_, ?_, ?_, ?_, ?_⟩
      · rw [logPageLoop, dif_pos ho]; rfl
      · intro i x h; simp at h
      · intro i x h; simp at h
      · intro i x h; simp at h
      · simp
      · omega
      · intro _; rfl
      · intro x h; simp at h
      · intro _; simp; omega
    · obtain ⟨q, hq⟩ : ∃ q, q = DrvReq.nvmeAdmin (logPageCmd nsid logId rae size buf) := ⟨_, rfl⟩
      obtain ⟨r, hr⟩ : ∃ r, r = env hist q := ⟨_, rfl⟩
      have hstep : OutT.run env hist (logPageLoop nsid logId rae size offset buf last) =
          ((OutT.run env (hist ++ [(q, r)]) (match r.err with
            | none => OutT.ret (storeInto buf r.data, none)
            | some e => logPageLoop nsid logId rae size (offset + min (size - offset) 4096) (storeInto buf r.data)
                (some e) : DrvM (Bytes × Option GoErr))).1,
           (q, r) :: (OutT.run env (hist ++ [(q, r)]) (match r.err with
            | none => OutT.ret (storeInto buf r.data, none)
            | some e => logPageLoop nsid logId rae size (offset + min (size - offset) 4096) (storeInto buf r.data)
                (some e) : DrvM (Bytes × Option GoErr))).2) := by
        rw [logPageLoop, dif_neg ho, OutT.run_ask_bind, ← hq, ← hr]; rfl
      rw [hstep]
      cases he : r.err with
      | none =>
        refine ⟨storeInto buf r.data, none, [(q, r)], rfl, ?_, ?_, ?_, ?_, ?_, ?_, ?_, ?_, ?_⟩
        · intro i x h
          cases i with
          | zero => simp at h; subst h; exact hq
          | succ i => simp at h
        · intro i x h
          cases i with
          | zero => simp at h; subst h; simpa using hr
          | succ i => simp at h
        · simp [afterStores, storeInto_delivered]
        · intro i x h hi; simp at hi
        · simp; omega
        · intro _; simp
        · intro h; simp at h
        · intro x h; simp at h; subst h; exact he.symm
        · intro h; exact absurd he (h (q, r) (by simp))
      | some e =>
        obtain ⟨out, e', tr, h1, h2, h3, h4, h5, h6, h7, h8, h9, h10⟩ :=
          ih (offset + min (size - offset) 4096) (storeInto buf r.data) (some e) (hist ++ [(q, r)]) (by omega)
            (by rw [storeInto_length, hb])
        refine ⟨out, e', (q, r) :: tr, ?_, ?_, ?_, ?_, ?_, ?_, ?_, ?_, ?_, ?_⟩
        · show (_, _) = (_, _)
          rw [h1]
        · intro i x h
          cases i with
          | zero => simp at h; subst h; exact hq
          | succ i =>
            rw [h2 i x (by simpa using h)]
            simp only [List.take_succ_cons, List.map_cons, afterStores_cons, storeInto_delivered]
        · intro i x h
          cases i with
          | zero => simp at h; subst h; simpa using hr
          | succ i =>
            rw [h3 i x (by simpa using h)]
            simp
        · rw [h4]; simp only [List.map_cons, afterStores_cons, storeInto_delivered]
        · intro i x h hi
          cases i with
          | zero => simp at h; subst h; simp [he]
          | succ i => exact h5 i x (by simpa using h) (by simpa using hi)
        · simp only [List.length_cons]; omega
        · intro _; simp
        · intro h; simp at h
        · intro x h
          cases tr with
          | nil =>
            simp at h; subst h; rw [he]; exact h8 rfl
          | cons y ys => exact h9 x (by simpa using h)
        · intro h
          simp only [List.length_cons]
          rw [h10 (fun x hx => h x (List.mem_cons_of_mem _ hx))]
          omega

end Dparm
