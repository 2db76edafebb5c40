import Verif.Spec.Win
import Verif.Lemmas.Sg
import Verif.Lemmas.Nvme
import Verif.Lemmas.Numbers
/-!
# Lemmas on the Windows pass-through functions
-/
namespace Dparm
open Spec

theorem winFirstMem_spec (rw : Bool) (d : Bytes) (addr base : Nat) (hd : d ≠ []) :
    ∃ a c ab, winFirstMem rw d addr base = .ret (a, c, ab) ∧ a % 512 = 0 ∧ c.length = d.length ∧
      (rw = true → c = d) ∧ (addr % 512 = 0 → a = addr ∧ c = d ∧ ab = none) ∧
      (addr % 512 ≠ 0 → (rw = false → c = zeros d.length) ∧
        ∃ b, ab = some b ∧ b.buf = c ∧ b.off + d.length ≤ b.mem.length ∧ b.limit = d.length ∧ b.rpos = 0) := by
  unfold winFirstMem
  rw [if_neg hd]
  by_cases ha : addr % 512 = 0
  · have : isAlignedPointer 512 addr = true := by simp [isAlignedPointer, ha]
    rw [if_pos this]
    exact ⟨addr, d, none, rfl, ha, rfl, fun _ => rfl, fun _ => ⟨rfl, rfl, rfl⟩, fun h => absurd ha h⟩
  · have : ¬ isAlignedPointer 512 addr = true := by simp [isAlignedPointer, ha]
    rw [if_neg this]
    cases rw with
    | true =>
      obtain ⟨ab, n, e, h1, h2, h3, h4, h5, h6⟩ := newAligned_write base d hd
      simp only [if_true, h1]
      exact ⟨ab.pointer, ab.buf, some ab, rfl, h3, by rw [h2], fun _ => h2, fun h => absurd h ha,
        fun _ => ⟨fun h => by simp at h, ab, rfl, rfl, h4, h5, h6⟩⟩
    | false =>
      obtain ⟨hf, hp, hl, hb⟩ := newAligned_fits base d.length
      simp only [Bool.false_eq_true, if_false]
      refine ⟨_, _, _, rfl, hp, by rw [hb]; simp, fun h => by simp at h, fun h => absurd h ha, fun _ => ⟨fun _ => hb, ?_⟩⟩
      exact ⟨_, rfl, rfl, hf, hl, rfl⟩

theorem winStore_length (rw : Bool) (m : Bytes) (r : WRep) : (winStore rw m r).length = m.length := by
  unfold winStore
  split
  · rfl
  · exact storeInto_length _ _

theorem winStore_true (m : Bytes) (r : WRep) : winStore true m r = m := rfl

theorem winStore_false (m : Bytes) (r : WRep) : winStore false m r = receivedInto m r.mem := by
  unfold winStore receivedInto
  rw [if_neg (by simp), storeInto_delivered]

/-- The caller's buffer after the first request. -/
theorem winAfterFirst_spec (rw : Bool) (d : Bytes) (addr base : Nat) (hd : d ≠ []) (r : WRep) (a : Nat) (c : Bytes)
    (ab : Option ABuf) (hm : winFirstMem rw d addr base = .ret (a, c, ab)) :
    ∃ d', winAfterFirst rw d ab r = .ret d' ∧ d'.length = d.length ∧
      (addr % 512 = 0 → d' = winStore rw d r) ∧
      (addr % 512 ≠ 0 → (rw = true ∨ r.err ≠ none → d' = d) ∧
        (rw = false → r.err = none → d' = winStore rw (zeros d.length) r)) := by
  obtain ⟨a', c', ab', h1, h2, h3, h4, h5, h6⟩ := winFirstMem_spec rw d addr base hd
  rw [hm] at h1
  simp only [P.ret.injEq, Prod.mk.injEq] at h1
  obtain ⟨-, rfl, rfl⟩ := h1
  by_cases ha : addr % 512 = 0
  · obtain ⟨-, -, rfl⟩ := h5 ha
    exact ⟨_, rfl, winStore_length _ _ _, fun _ => rfl, fun h => absurd ha h⟩
  · obtain ⟨hz, b, rfl, hb, hf, hl, hr⟩ := h6 ha
    unfold winAfterFirst
    by_cases hc : r.err = none ∧ rw = false
    · obtain ⟨he, hw⟩ := hc
      subst hw
      simp only [he, decide_true, Bool.not_false, Bool.and_self, if_true]
      have hpos : 0 < d.length := List.length_pos_iff.2 hd
      have hkl : (winStore false b.buf r).length = d.length := by rw [winStore_length, hb, h3]
      have hrd : (({ b with mem := copyAt b.mem b.off (winStore false b.buf r) } : ABuf).resetRead).read d.length =
          .ret ({ ({ b with mem := copyAt b.mem b.off (winStore false b.buf r) } : ABuf).resetRead with
            rpos := 0 + d.length }, winStore false b.buf r, none) := by
        unfold ABuf.read ABuf.resetRead
        simp only [hl, Nat.sub_zero, Nat.min_self, Nat.not_lt_zero, if_false, Nat.add_zero, gt_iff_lt]
        rw [if_neg (by omega)]
        congr 2
        rw [← hkl, slice_copyAt_same _ _ _ (by rw [hkl]; exact hf)]
      rw [hrd]
      refine ⟨_, rfl, ?_, fun h => absurd h ha, fun _ => ⟨fun h => by simp [he] at h, fun _ _ => ?_⟩⟩
      · exact storeInto_length _ _
      · rw [storeInto_full _ _ hkl, hb, hz rfl]
    · have : (decide (r.err = none) && !rw) = false := by
        cases rw
        · simp only [and_true] at hc; simp [hc]
        · simp
      rw [this]
      simp only [Bool.false_eq_true, if_false]
      refine ⟨_, rfl, rfl, fun h => absurd h ha, fun _ => ⟨fun _ => rfl, fun h1 h2 => absurd ⟨h2, h1⟩ hc⟩⟩

/-- What is needed of the field function: it keeps the record's size, and there is room for `DataBuffer`. -/
structure WinPass.Ok (w : WinPass) : Prop where
  size : 32 ≤ w.size ∧ w.size < 256
  fields : ∀ n p, p.length = w.size → (w.fields n p).length = w.size
  failed : ∀ e p, w.verdict (some e) p = some e

/-- The record after the second request succeeded: the one sent, or the one copied back. -/
def WinPass.finalRec (w : WinPass) (p2 : Bytes) (r2 : WRep) : Bytes :=
  if w.copyBack then delivered p2 r2.out else p2

theorem delivered_append_take (p d got : Bytes) : (delivered (p ++ d) got).take p.length = delivered p got := by
  unfold delivered
  apply List.ext_getElem?
  intro i
  simp only [List.getElem?_take, List.getElem?_append, List.length_take, List.length_append, List.getElem?_drop]
  by_cases h : i < p.length
  · by_cases h1 : i < got.length
    · rw [if_pos h, if_pos (by omega), if_pos (by omega), if_pos (by omega), if_pos (by omega)]
    · have e1 : ¬ i < min (p.length + d.length) got.length := by omega
      have e2 : ¬ i < min p.length got.length := by omega
      have e3 : min (p.length + d.length) got.length + (i - min (p.length + d.length) got.length) < p.length := by omega
      simp only [h, e1, e2, e3, if_true, if_false]
      congr 1; omega
  · rw [if_neg h, if_neg (by omega), List.getElem?_eq_none]
    omega

theorem delivered_append_drop (p d got : Bytes) :
    (delivered (p ++ d) got).drop p.length = delivered d (got.drop p.length) := by
  unfold delivered
  apply List.ext_getElem?
  intro i
  simp only [List.getElem?_take, List.getElem?_append, List.length_take, List.length_append, List.getElem?_drop,
    List.length_drop]
  by_cases h1 : p.length + i < min (p.length + d.length) got.length
  · rw [if_pos h1, if_pos (by omega), if_pos (by omega), if_pos (by omega)]
  · rw [if_neg h1, if_neg (by omega), if_neg (by omega)]
    congr 1; omega

/-- All runs on a non-empty buffer. -/
theorem winPass_run (w : WinPass) (hw : w.Ok) (h : Nat) (rw : Bool) (data : Bytes) (addr base : Nat)
    (env : Prog.Env WReq WRep) (hist : Prog.Trace WReq WRep) (hd : data ≠ []) :
    ∃ a c d1 p q r, p = copyAt (w.fields data.length (zeros w.size)) 24 (leBytes 8 a) ∧
      q = WReq.ioctl h w.direct p w.size (some (a, c)) ∧ r = env hist q ∧ a % 512 = 0 ∧ c.length = data.length ∧
      d1.length = data.length ∧ p.length = w.size ∧
      (rw = true → c = zeros data.length ∧ d1 = zeros data.length) ∧
      (rw = false → addr % 512 = 0 → a = addr ∧ c = data ∧ d1 = receivedInto data r.mem) ∧
      (rw = false → addr % 512 ≠ 0 → c = zeros data.length ∧ (r.err ≠ none → d1 = data) ∧
        (r.err = none → d1 = receivedInto (zeros data.length) r.mem)) ∧
      (r.err = none → OutT.run env hist (w.run h rw data addr base) =
        (.ret (w.verdict none (delivered p r.out), d1), [(q, r)])) ∧
      (∀ e, r.err = some e → ∃ p2 q2 r2, p2 = copyAt (w.fields data.length (delivered p r.out)) 24 (leBytes 8 w.size) ∧
        p2.length = w.size ∧
        q2 = WReq.ioctl h w.buffered (p2 ++ d1) (p2 ++ d1).length none ∧ r2 = env (hist ++ [(q, r)]) q2 ∧
        (r2.err = none → OutT.run env hist (w.run h rw data addr base) =
          (.ret (w.verdict none (w.finalRec p2 r2),
            if rw then d1 else delivered d1 (r2.out.drop w.size)), [(q, r), (q2, r2)])) ∧
        (∀ e2, r2.err = some e2 → OutT.run env hist (w.run h rw data addr base) =
          (.ret (some e2, d1), [(q, r), (q2, r2)]))) := by
  obtain ⟨d, hdd⟩ : ∃ d, d = (if rw then zeros data.length else data) := ⟨_, rfl⟩
  have hdl : d.length = data.length := by rw [hdd]; split <;> simp
  have hne : d ≠ [] := by
    intro h
    rw [h] at hdl
    exact hd (List.length_eq_zero_iff.1 hdl.symm)
  obtain ⟨a, c, ab, h1, h2, h3, h4, h5, h6⟩ := winFirstMem_spec rw d addr base hne
  obtain ⟨p, hp⟩ : ∃ p, p = copyAt (w.fields data.length (zeros w.size)) 24 (leBytes 8 a) := ⟨_, rfl⟩
  obtain ⟨q, hq⟩ : ∃ q, q = WReq.ioctl h w.direct p w.size (some (a, c)) := ⟨_, rfl⟩
  obtain ⟨r, hr⟩ : ∃ r, r = env hist q := ⟨_, rfl⟩
  obtain ⟨d1, g1, g2, g3, g4⟩ := winAfterFirst_spec rw d addr base hne r a c ab h1
  have hf0 : (w.fields data.length (zeros w.size)).length = w.size := hw.fields _ _ (by simp)
  have hs := hw.size
  have hpl : p.length = w.size := by
    rw [hp, copyAt_length _ _ _ (by simp; omega), hf0]
  refine ⟨a, c, d1, p, q, r, hp, hq, hr, h2, by rw [h3, hdl], by rw [g2, hdl], hpl, ?_, ?_, ?_, ?_, ?_⟩
  · intro hw'
    have : d = zeros data.length := by rw [hdd, if_pos hw']
    refine ⟨by rw [h4 hw', this], ?_⟩
    by_cases ha : addr % 512 = 0
    · rw [g3 ha, this, hw']; rfl
    · rw [(g4 ha).1 (.inl hw'), this]
  · intro hw' ha
    have : d = data := by rw [hdd, hw']; rfl
    obtain ⟨e1, e2, -⟩ := h5 ha
    refine ⟨e1, by rw [e2, this], ?_⟩
    rw [g3 ha, hw', winStore_false, this]
  · intro hw' ha
    have : d = data := by rw [hdd, hw']; rfl
    refine ⟨by rw [(h6 ha).1 hw', hdl], fun he => ?_, fun he => ?_⟩
    · rw [(g4 ha).1 (.inr he), this]
    · rw [(g4 ha).2 hw' he, hw', winStore_false, hdl]
  · intro he
    unfold WinPass.run
    rw [← hdd]
    simp only [h1]
    rw [OutT.run_bind_ret env hist (OutT.run_lift_ret env hist (a, c, ab))]
    simp only [List.append_nil, List.nil_append, hdl]
    rw [← hp, OutT.run_ask_bind, ← hq, ← hr]
    simp only [g1]
    rw [OutT.run_bind_ret env _ (OutT.run_lift_ret env _ d1)]
    simp only [he, OutT.run_ret, List.append_nil, storeInto_delivered]
  · intro e he
    obtain ⟨p2, hp2⟩ : ∃ p2, p2 = copyAt (w.fields data.length (delivered p r.out)) 24 (leBytes 8 w.size) := ⟨_, rfl⟩
    obtain ⟨q2, hq2⟩ : ∃ q2, q2 = WReq.ioctl h w.buffered (p2 ++ d1) (p2 ++ d1).length none := ⟨_, rfl⟩
    obtain ⟨r2, hr2⟩ : ∃ r2, r2 = env (hist ++ [(q, r)]) q2 := ⟨_, rfl⟩
    have hf1 : (w.fields data.length (delivered p r.out)).length = w.size :=
      hw.fields _ _ (by rw [delivered_length, hpl])
    have hpl2 : p2.length = w.size := by
      rw [hp2, copyAt_length _ _ _ (by simp; omega), hf1]
    refine ⟨p2, q2, r2, hp2, hpl2, hq2, hr2, ?_, ?_⟩
    · intro he2
      unfold WinPass.run
      rw [← hdd]
      simp only [h1]
      rw [OutT.run_bind_ret env hist (OutT.run_lift_ret env hist (a, c, ab))]
      simp only [List.append_nil, List.nil_append, hdl]
      rw [← hp, OutT.run_ask_bind, ← hq, ← hr]
      simp only [g1]
      rw [OutT.run_bind_ret env _ (OutT.run_lift_ret env _ d1)]
      simp only [he, List.append_nil, storeInto_delivered, g2, hdl]
      rw [← hp2, OutT.run_ask_bind, ← hq2, ← hr2]
      simp only [he2, OutT.run_ret, List.nil_append]
      have e1 : (delivered (p2 ++ d1) r2.out).take w.size = delivered p2 r2.out := by
        rw [← hpl2]; exact delivered_append_take _ _ _
      have e2 : (delivered (p2 ++ d1) r2.out).drop w.size = delivered d1 (r2.out.drop w.size) := by
        rw [← hpl2]; exact delivered_append_drop _ _ _
      have e3 : delivered p2 (delivered p2 r2.out) = delivered p2 r2.out := by
        rw [← storeInto_delivered p2 (delivered p2 r2.out), storeInto_full _ _ (delivered_length _ _)]
      have e4 : delivered d1 (delivered d1 (r2.out.drop w.size)) = delivered d1 (r2.out.drop w.size) := by
        rw [← storeInto_delivered d1 (delivered d1 _), storeInto_full _ _ (delivered_length _ _)]
      rw [e1, e2, e3, e4]
      rfl
    · intro e2 he2
      unfold WinPass.run
      rw [← hdd]
      simp only [h1]
      rw [OutT.run_bind_ret env hist (OutT.run_lift_ret env hist (a, c, ab))]
      simp only [List.append_nil, List.nil_append, hdl]
      rw [← hp, OutT.run_ask_bind, ← hq, ← hr]
      simp only [g1]
      rw [OutT.run_bind_ret env _ (OutT.run_lift_ret env _ d1)]
      simp only [he, List.append_nil, storeInto_delivered, g2, hdl]
      rw [← hp2, OutT.run_ask_bind, ← hq2, ← hr2]
      simp only [he2, OutT.run_ret, List.nil_append, hw.failed]

/-- An empty (or nil) buffer panics before any request. -/
theorem winPass_empty (w : WinPass) (h : Nat) (rw : Bool) (addr base : Nat)
    (env : Prog.Env WReq WRep) (hist : Prog.Trace WReq WRep) :
    OutT.run env hist (w.run h rw [] addr base) = (.panic, []) := by
  cases rw <;> rfl

/-! ### Fields -/

/-- Writing a field of a record of a known size. -/
theorem put_length {m d : Bytes} {i N : Nat} (hm : m.length = N) (hf : i + d.length ≤ N) :
    (copyAt m i d).length = N := by
  rw [copyAt_length _ _ _ (by omega), hm]

/-- Reading the field just written. -/
theorem put_same {m d : Bytes} {i n N : Nat} (hm : m.length = N) (hn : n = d.length) (hf : i + d.length ≤ N) :
    slice (copyAt m i d) i n = d := by
  rw [hn, slice_copyAt_same _ _ _ (by omega)]

/-- Reading another field. -/
theorem put_other {m d : Bytes} {i j n N : Nat} (hm : m.length = N) (hf : i + d.length ≤ N)
    (hd : j + n ≤ i ∨ i + d.length ≤ j) : slice (copyAt m i d) j n = slice m j n :=
  slice_copyAt_disjoint _ _ _ _ _ (by omega) hd

end Dparm
