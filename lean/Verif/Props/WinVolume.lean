import Verif.Spec.WinVolume
import Verif.Props.WinEnum
/-!
# Volumes on Windows (C76, C108 to C112, C114)
-/
namespace Dparm
open Spec

/-! ### Texts -/

theorem wtext_ctext (b : Wide) : CText b (wtext b) := by
  refine ⟨List.takeWhile_prefix _, ?_, ?_⟩
  · intro h
    have := mem_takeWhile_sat (p := fun c : BitVec 16 => c != 0#16) h
    simp at this
  · intro h
    unfold wtext at h ⊢
    have hs := List.takeWhile_append_dropWhile (p := fun c : BitVec 16 => c != 0#16) (l := b)
    generalize hT : List.takeWhile (fun c : BitVec 16 => c != 0#16) b = T at hs h
    cases hd : b.dropWhile (fun c : BitVec 16 => c != 0#16) with
    | nil =>
      rw [hd, List.append_nil] at hs
      rw [hs] at h
      omega
    | cons x xs =>
      have hx := List.head_dropWhile_not (fun c : BitVec 16 => c != 0#16) (l := b) (by rw [hd]; simp)
      simp only [hd, List.head_cons] at hx
      rw [← hs, hd, List.getElem?_append_right (Nat.le_refl _)]
      simp at hx
      simp [hx]

/-- There is only one such text. -/
theorem Spec.CText.unique {b t t' : Wide} (h : CText b t) (h' : CText b t') : t = t' := by
  have aux : ∀ {t t' : Wide}, CText b t → CText b t' → t.length ≤ t'.length → t = t' := by
    intro t t' h h' hl
    rcases Nat.lt_or_ge t.length t'.length with hlt | hge
    · exfalso
      have hb := h.stop (Nat.lt_of_lt_of_le hlt h'.start.length_le)
      obtain ⟨s, hs⟩ := h'.start
      rw [← hs, List.getElem?_append_left hlt] at hb
      exact h'.clean (List.mem_of_getElem? hb)
    · have p1 := List.prefix_of_prefix_length_le h.start h'.start hl
      exact p1.eq_of_length (by omega)
  rcases Nat.le_total t.length t'.length with hl | hl
  · exact aux h h' hl
  · exact (aux h' h hl).symm

theorem wtext_eq {b t : Wide} (h : CText b t) : wtext b = t := (wtext_ctext b).unique h

theorem storeWide_padded (n : Nat) (w : Wide) : storeWide (List.replicate n 0#16) w = padded n w := by
  unfold storeWide padded
  simp only [List.length_replicate, List.drop_replicate, List.length_take]
  congr 2
  omega

theorem storeWide_eq (b w : Wide) : storeWide b w = w.take b.length ++ b.drop w.length := by
  unfold storeWide
  congr 1
  rw [List.length_take]
  rcases Nat.le_total b.length w.length with h | h
  · rw [Nat.min_eq_left h, List.drop_of_length_le (Nat.le_refl _), List.drop_of_length_le h]
  · rw [Nat.min_eq_right h]

theorem storeWide_length (b w : Wide) : (storeWide b w).length = b.length := by
  unfold storeWide
  rw [List.length_append, List.length_drop, List.length_take]
  omega

theorem winBare_spec (name : Wide) : BareName name (winBare name) := by
  unfold winBare
  have hs := List.takeWhile_append_dropWhile (p := fun c : BitVec 16 => c == 0x5c#16) (l := name.reverse)
  generalize hT : List.takeWhile (fun c : BitVec 16 => c == 0x5c#16) name.reverse = T at hs
  refine ⟨⟨T.length, ?_⟩, ?_⟩
  · have hall : T = List.replicate T.length 0x5c := by
      rw [List.eq_replicate_iff]
      refine ⟨rfl, fun c hc => ?_⟩
      rw [← hT] at hc
      simpa using mem_takeWhile_sat hc
    have := congrArg List.reverse hs
    rw [List.reverse_reverse, List.reverse_append] at this
    have hT' : T.reverse = List.replicate T.length 0x5c := by
      conv => lhs; rw [hall, List.reverse_replicate]
    rw [hT'] at this
    exact this.symm
  · rw [List.getLast?_reverse]
    cases hd : name.reverse.dropWhile (fun c : BitVec 16 => c == 0x5c#16) with
    | nil => simp
    | cons x xs =>
      have hx := List.head_dropWhile_not (fun c : BitVec 16 => c == 0x5c#16) (l := name.reverse) (by rw [hd]; simp)
      simp only [hd, List.head_cons] at hx
      simp at hx
      simp [hx]

/-! ### Mount points -/

theorem mountLoop_spec (b : Wide) :
    mountLoop b = if 0 ∈ b then .ret (if wtext b = [] then [] else [wtext b]) else .panic := by
  cases b with
  | nil => unfold mountLoop; simp
  | cons c cs =>
    unfold mountLoop
    by_cases hc : c = 0#16
    · rw [dif_pos hc]
      subst hc
      simp [wtext]
    · rw [dif_neg hc]
      have hw : wtext (c :: cs) ≠ [] := by simp [wtext, hc]
      have ht := wtext_ctext (c :: cs)
      rw [if_neg hw]
      dsimp only
      generalize wtext (c :: cs) = T at ht
      by_cases hlen : T.length < (c :: cs).length
      · have hz := ht.stop hlen
        rw [if_pos (List.mem_of_getElem? hz)]
        have hd : (c :: cs).drop T.length = 0#16 :: (c :: cs).drop (T.length + 1) := by
          rw [List.drop_eq_getElem_cons hlen]
          congr 1
          rw [List.getElem?_eq_getElem hlen] at hz
          simpa using hz
        rw [hd]
        unfold mountLoop
        simp
      · obtain ⟨s, hs⟩ := ht.start
        have hs0 : s = [] := by
          have := congrArg List.length hs
          rw [List.length_append] at this
          exact List.length_eq_zero_iff.mp (by omega)
        subst hs0
        rw [List.append_nil] at hs
        rw [← hs, if_neg ht.clean, List.drop_length]
        unfold mountLoop
        rfl

theorem mem_padded (n : Nat) (w : Wide) : 0#16 ∈ padded n w ↔ ¬ (n ≤ w.length ∧ 0#16 ∉ w.take n) := by
  unfold padded
  rw [List.mem_append, List.mem_replicate]
  by_cases h : n ≤ w.length
  · simp [h, Nat.sub_eq_zero_of_le h]
  · simp [h]
    right; omega

/-- The inquiry about the mount points: the exchange and what is reported; a panic exactly on a bad answer. -/
theorem winMounts_run (conv : Wide → Bytes) (name : Wide) (env : Prog.Env WReq WRep) (hist : Prog.Trace WReq WRep) :
    ∃ r o, OutT.run env hist (winMounts conv name) = (o, [(.volumePaths name, r)]) ∧
      ((o = .panic ∧ BadAnswer (.volumePaths name, r)) ∨
       (∃ ms, o = .ret ms ∧ MountsSeen conv r ms ∧ ¬ BadAnswer (.volumePaths name, r))) := by
  unfold winMounts
  rw [OutT.run_ask_bind]
  obtain ⟨r, hr⟩ : ∃ r, r = env hist (.volumePaths name) := ⟨_, rfl⟩
  rw [← hr]
  generalize hist ++ [(WReq.volumePaths name, r)] = H
  by_cases h : r.err = none ∧ r.n > 0
  · rw [if_pos h, storeWide_padded, mountLoop_spec]
    by_cases hz : (0 : BitVec 16) ∈ padded 4096 r.wide
    · rw [if_pos hz]
      refine ⟨r, _, rfl, .inr ⟨_, rfl, ?_, ?_⟩⟩
      · unfold MountsSeen
        rw [if_pos h]
        have hc := wtext_ctext (padded 4096 r.wide)
        refine ⟨_, hc, ?_, ?_⟩
        · have hl : (padded 4096 r.wide).length = 4096 := by rw [← storeWide_padded, storeWide_length, List.length_replicate]
          rcases Nat.lt_or_ge (wtext (padded 4096 r.wide)).length 4096 with h1 | h1
          · exact h1
          · exfalso
            have := hc.start.eq_of_length (by have := hc.start.length_le; omega)
            exact hc.clean (by rw [this]; exact hz)
        · split
          · rfl
          · rfl
      · intro hb
        cases hb with
        | mounts _ _ _ _ h1 h2 => exact (mem_padded 4096 r.wide).mp hz ⟨h1, h2⟩
    · rw [if_neg hz]
      have hb : 4096 ≤ r.wide.length ∧ 0#16 ∉ r.wide.take 4096 := by
        have hz' : ¬ 0#16 ∈ padded 4096 r.wide := hz
        rw [mem_padded] at hz'
        exact Decidable.not_not.mp hz'
      exact ⟨r, .panic, rfl, .inl ⟨rfl, .mounts name r h.1 h.2 hb.1 hb.2⟩⟩
  · rw [if_neg h]
    refine ⟨r, _, rfl, .inr ⟨[], rfl, ?_, ?_⟩⟩
    · unfold MountsSeen
      rw [if_neg h]
    · intro hb
      cases hb with
      | mounts _ _ h1 h2 => exact h ⟨h1, h2⟩

/-- C76: whatever list of mount points Windows reports for a volume, only the first is recorded. -/
theorem win_first_mount_only (conv : Wide → Bytes) (name : Wide) (texts : List Wide) (hne : ∀ t ∈ texts, t ≠ [] ∧ 0 ∉ t)
    (hfit : (multiString texts).length ≤ 4096) (env : Prog.Env WReq WRep) (hist : Prog.Trace WReq WRep)
    (hw : (env hist (.volumePaths name)).wide = multiString texts) (he : (env hist (.volumePaths name)).err = none)
    (hn : 0 < (env hist (.volumePaths name)).n) :
    (OutT.run env hist (winMounts conv name)).1 = .ret ((texts.take 1).map conv) := by
  obtain ⟨r, o, hrun, hcase⟩ := winMounts_run conv name env hist
  have hr : r = env hist (.volumePaths name) := by
    have : (OutT.run env hist (winMounts conv name)).2 = [(.volumePaths name, r)] := by rw [hrun]
    unfold winMounts at this
    rw [OutT.run_ask_bind] at this
    simp only [List.cons.injEq, Prod.mk.injEq, true_and] at this
    exact this.1.symm
  rw [← hr] at hw he hn
  rw [hrun]
  have hz : (0 : BitVec 16) ∈ r.wide.take 4096 := by
    rw [hw, List.take_of_length_le hfit]
    simp [multiString]
  rcases hcase with ⟨-, hb⟩ | ⟨ms, rfl, hm, -⟩
  · cases hb with
    | mounts _ _ _ _ h1 h2 => exact absurd hz h2
  · unfold MountsSeen at hm
    rw [if_pos ⟨he, hn⟩] at hm
    obtain ⟨text, hc, -, rfl⟩ := hm
    have key : CText (padded 4096 r.wide) (texts.head?.getD []) := by
      unfold padded
      rw [hw, List.take_of_length_le hfit]
      cases texts with
      | nil => exact ⟨⟨_, rfl⟩, by simp, fun _ => rfl⟩
      | cons t ts =>
        obtain ⟨h1, h2⟩ := hne t (by simp)
        refine ⟨⟨[0] ++ multiString ts ++ List.replicate (4096 - (multiString (t :: ts)).length) 0, ?_⟩, h2, fun _ => ?_⟩
        · simp [multiString]
        · simp [multiString, List.append_assoc]
    rw [hc.unique key]
    cases texts with
    | nil => rfl
    | cons t ts =>
      obtain ⟨h1, h2⟩ := hne t (by simp)
      simp [h1]

/-! ### Extents and partition -/

theorem extentOf_slice (m : Bytes) (off : Nat) : extentOf (slice m off 24) = extentAt m off := by
  unfold extentOf extentAt
  rw [slice_slice _ _ _ _ _ (by omega), slice_slice _ _ _ _ _ (by omega), slice_slice _ _ _ _ _ (by omega), Nat.add_zero]

theorem extentLoop_spec (data : Bytes) (hl : data.length = 4096) (beyond : Nat → Byte) : ∀ n k,
    extentLoop data beyond n (8 + 24 * k) = if n = 0 ∨ k + n ≤ 171 then
      .ret ((List.range n).map (fun i => extentAt (data ++ (List.range 24).map beyond) (8 + 24 * (k + i)))) else .panic := by
  intro n
  induction n with
  | zero => intro k; rw [if_pos (.inl rfl)]; rfl
  | succ n ih =>
    intro k
    unfold extentLoop
    by_cases hk : 8 + 24 * k ≥ data.length
    · rw [if_pos hk, if_neg (by omega)]
    · rw [if_neg hk]
      have e : 8 + 24 * k + 24 = 8 + 24 * (k + 1) := by omega
      dsimp only
      rw [e, ih (k + 1), extentOf_slice]
      by_cases hn : n = 0 ∨ k + 1 + n ≤ 171
      · rw [if_pos hn, if_pos (by omega)]
        generalize (List.range 24).map beyond = bs
        rw [List.range_succ_eq_map, List.map_cons, List.map_map]
        show P.ret _ = P.ret _
        congr 2
        refine List.map_congr_left (fun i _ => ?_)
        simp only [Function.comp]
        congr 2
        omega
      · rw [if_neg hn, if_neg (by omega)]
        rfl

theorem winPartitionInfo_run (h : Nat) (x : Extent) (env : Prog.Env WReq WRep) (hist : Prog.Trace WReq WRep) :
    ∃ q, OutT.run env hist (winPartitionInfo h x) = (.ret (partitionSeen x q), [(.ioctl h 0x70048 [] 144 none, q)]) := by
  unfold winPartitionInfo
  rw [OutT.run_ask_bind]
  obtain ⟨q, hq⟩ : ∃ q, q = env hist (.ioctl h 0x70048 [] 144 none) := ⟨_, rfl⟩
  rw [← hq]
  refine ⟨q, ?_⟩
  generalize hist ++ [(WReq.ioctl h 0x70048 [] 144 none, q)] = H
  unfold partitionSeen
  cases he : q.err with
  | some e => rfl
  | none =>
    rw [if_pos rfl]
    dsimp only
    rw [storeInto_delivered]
    generalize delivered (zeros 144) q.out = e
    unfold itemPart
    by_cases h1 : leVal (slice e 0 4) = 1
    · rw [if_pos h1, guidText_upper, guidText_upper, if_neg (by omega : ¬ leVal (slice e 0 4) = 0), if_pos h1]
      rfl
    · rw [if_neg h1]
      by_cases h0 : leVal (slice e 0 4) = 0
      · rw [if_pos h0, if_pos h0, if_neg h1]
        have : (e.getD 33 0#8 != 0#8) = decide (e.getD 33 0 ≠ 0) := by
          generalize e.getD 33 0#8 = y
          by_cases hx : y = 0#8
          · subst hx; rfl
          · rw [decide_eq_true (p := y ≠ 0) hx]
            exact bne_iff_ne.mpr hx
        rw [this]
        rfl
      · rw [if_neg h0, if_neg h0, if_neg h1]
        rfl

theorem extentsIn_head (m : Bytes) (hl : m.length = 4096) (beyond : Nat → Byte) (n : Nat) :
    extentsIn m beyond (n + 1) = extentAt m 8 :: (extentsIn m beyond (n + 1)).tail := by
  unfold extentsIn
  generalize (List.range 24).map beyond = bs
  rw [List.range_succ_eq_map, List.map_cons, List.tail_cons]
  congr 1
  unfold extentAt
  have : ∀ i k, i + k ≤ 4096 → slice (m ++ bs) i k = slice m i k := by
    intro i k h
    unfold slice
    rw [List.drop_append_of_le_length (by omega), List.take_append_of_le_length (by rw [List.length_drop]; omega)]
  rw [this _ _ (by omega), this _ _ (by omega), this _ _ (by omega)]

theorem winExtents_run (h : Nat) (dataBuf : Bytes) (hl : dataBuf.length = 4096) (beyond : Nat → Byte)
    (env : Prog.Env WReq WRep) (hist : Prog.Trace WReq WRep) :
    (∃ r, OutT.run env hist (winExtents h dataBuf beyond) = (.panic, [(.ioctl h 0x560000 [] 4096 none, r)]) ∧
      BadAnswer (.ioctl h 0x560000 [] 4096 none, r)) ∨
    (∃ es part data' t, OutT.run env hist (winExtents h dataBuf beyond) = (.ret (es, part, data'), t) ∧
      data'.length = 4096 ∧ ExtentsSeen h beyond t es part) := by
  unfold winExtents
  rw [hl, OutT.run_ask_bind]
  obtain ⟨r, hr⟩ : ∃ r, r = env hist (.ioctl h 0x560000 [] 4096 none) := ⟨_, rfl⟩
  rw [← hr]
  generalize hist ++ [(WReq.ioctl h 0x560000 [] 4096 none, r)] = H
  have hld : (storeInto dataBuf r.out).length = 4096 := by rw [storeInto_length, hl]
  have hdel := storeInto_delivered dataBuf r.out
  generalize hm : storeInto dataBuf r.out = m at hld hdel
  dsimp only
  cases he : r.err with
  | some e => exact .inr ⟨[], none, m, _, rfl, hld, .failed r e he⟩
  | none =>
    dsimp only
    have hx := extentLoop_spec m hld beyond (leVal (slice m 0 4)) 0
    rw [Nat.mul_zero, Nat.add_zero, Nat.zero_add] at hx
    rw [hx]
    generalize hn : leVal (slice m 0 4) = n
    by_cases hb : n = 0 ∨ n ≤ 171
    · rw [if_pos hb]
      simp only [Nat.zero_add]
      cases n with
      | zero =>
        refine .inr ⟨[], none, m, _, rfl, hld, .none r dataBuf he hl ?_⟩
        rw [← hdel]
        exact hn
      | succ n =>
        have hes := extentsIn_head m hld beyond n
        have hdef : (List.range (n + 1)).map (fun i => extentAt (m ++ (List.range 24).map beyond) (8 + 24 * i)) =
          extentsIn m beyond (n + 1) := rfl
        rw [hdef]
        generalize hT : extentsIn m beyond (n + 1) = es at hes
        rw [OutT.run_bind]
        simp only [OutT.lift, OutT.run_ret]
        rw [hes]
        dsimp only
        rw [OutT.run_bind]
        obtain ⟨q, hq⟩ := winPartitionInfo_run h (extentAt m 8) env (H ++ [])
        rw [hq]
        refine .inr ⟨es, partitionSeen (extentAt m 8) q, m,
          [(.ioctl h 0x560000 [] 4096 none, r), (.ioctl h 0x70048 [] 144 none, q)], ?_, hld, ?_⟩
        · rw [hes]; rfl
        · rw [← hT, hdel]
          exact .some r q dataBuf (n + 1) he hl (by rw [← hdel]; exact hn) (by omega) (by omega)
    · rw [if_neg hb]
      refine .inl ⟨r, rfl, .extents h r dataBuf he hl ?_⟩
      rw [← hdel]
      unfold extentCount
      omega

/-! ### One volume, all volumes -/

theorem winFilesystem_run (conv : Wide → Bytes) (name fsBuf : Wide) (hl : fsBuf.length = 128) (env : Prog.Env WReq WRep)
    (hist : Prog.Trace WReq WRep) :
    ∃ r fs fsBuf', OutT.run env hist (winFilesystem conv name fsBuf) = (.ret (fs, fsBuf'), [(.volumeInfo name, r)]) ∧
      fsBuf'.length = 128 ∧ FilesystemSeen conv r fs := by
  unfold winFilesystem
  rw [OutT.run_ask_bind]
  obtain ⟨r, hr⟩ : ∃ r, r = env hist (.volumeInfo name) := ⟨_, rfl⟩
  rw [← hr]
  refine ⟨r, _, storeWide fsBuf r.wide, rfl, by rw [storeWide_length, hl], ?_⟩
  unfold FilesystemSeen
  by_cases he : r.err = none
  · rw [if_pos he, if_pos he]
    have := wtext_ctext (storeWide fsBuf r.wide)
    refine ⟨fsBuf, _, hl, ?_, rfl⟩
    rw [← hl, ← storeWide_eq]
    exact this
  · rw [if_neg he, if_neg he]

/-- The beginning of a round: a panic at a bad answer, or all that is known of the volume before it is opened. -/
theorem winVolumeHead_run (conv : Wide → Bytes) (name fsBuf : Wide) (hf : fsBuf.length = 128)
    (env : Prog.Env WReq WRep) (hist : Prog.Trace WReq WRep) :
    (∃ p, OutT.run env hist (winVolumeHead conv name fsBuf) = (.panic, [(.volumePaths name, p)]) ∧
      BadAnswer (.volumePaths name, p)) ∨
    (∃ p i d o bare v fsBuf', OutT.run env hist (winVolumeHead conv name fsBuf) = (.ret (v, fsBuf', o),
        [(.volumePaths name, p), (.volumeInfo name, i), (.driveType name, d), (.openVolume bare, o)]) ∧
      fsBuf'.length = 128 ∧ BareName name bare ∧ MountsSeen conv p v.mountPoints ∧ FilesystemSeen conv i v.filesystem ∧
      v.driveType = d.n ∧ v.path = conv bare ∧ v.extents = [] ∧ v.partition = none) := by
  unfold winVolumeHead
  obtain ⟨p, o, hp, hcase⟩ := winMounts_run conv name env hist
  rw [OutT.run_bind, hp]
  rcases hcase with ⟨rfl, hb⟩ | ⟨ms, rfl, hms, -⟩
  · exact .inl ⟨p, rfl, hb⟩
  · dsimp only
    obtain ⟨i, fs, fsBuf', hi, hfl, hfs⟩ := winFilesystem_run conv name fsBuf hf env (hist ++ [(WReq.volumePaths name, p)])
    rw [OutT.run_bind, hi]
    dsimp only
    rw [OutT.run_ask_bind]
    generalize hist ++ [(WReq.volumePaths name, p)] ++ [(WReq.volumeInfo name, i)] = H
    obtain ⟨d, hd'⟩ : ∃ d, d = env H (.driveType name) := ⟨_, rfl⟩
    rw [← hd']
    dsimp only
    rw [OutT.run_ask_bind]
    have hbare := winBare_spec name
    generalize winBare name = bare at hbare
    generalize H ++ [(WReq.driveType name, d)] = H2
    obtain ⟨o, ho⟩ : ∃ o, o = env H2 (.openVolume bare) := ⟨_, rfl⟩
    rw [← ho]
    exact .inr ⟨p, i, d, o, bare, { path := conv bare, filesystem := fs, mountPoints := ms, driveType := d.n }, fsBuf', rfl, hfl,
      hbare, hms, hfs, rfl, rfl, rfl, rfl⟩

/-- How the search from the volume called `name` on ended, before the deferred calls. -/
def SearchEnded (conv : Wide → Bytes) (beyond : Nat → Byte) (find : Nat) (x : Out (List WinVol)) (name : Wide)
    (T : Prog.Trace WReq WRep) (hs : List Nat) : Prop :=
  (∃ vs, x = .ret vs ∧ Volumes conv beyond find name T vs hs) ∨ (x = .panic ∧ VolumesPanic conv beyond find name T hs)

/-- The end of a round, given what the further rounds do. -/
theorem winNextVolume_run (conv : Wide → Bytes) (beyond : Nat → Byte) (find : Nat) (env : Prog.Env WReq WRep)
    (loop : Wide → VolBufs → WinM (List WinVol)) (b : VolBufs)
    (ih : ∀ (name : Wide) (hist t : Prog.Trace WReq WRep) (x : Out (List WinVol)),
      OutT.run env hist (loop name b) = (x, t) → x ≠ .running →
      ∃ T C hs, t = T ++ C ∧ C.map (·.1) = hs.reverse.map WReq.closeHandle ∧ SearchEnded conv beyond find x name T hs)
    (name : Wide) (v : WinVol) (h : Option Nat) (tv hist t : Prog.Trace WReq WRep) (x : Out (List WinVol))
    (hv : VolumeSeen conv beyond name tv v h)
    (hrun : OutT.run env hist (winNextVolume find loop v b) = (x, t)) (hx : x ≠ .running) :
    ∃ T C hs, t = T ++ C ∧ C.map (·.1) = hs.reverse.map WReq.closeHandle ∧
      SearchEnded conv beyond find x name (tv ++ T) (h.toList ++ hs) := by
  unfold winNextVolume at hrun
  rw [OutT.run_ask_bind] at hrun
  obtain ⟨n, hn⟩ : ∃ n, n = env hist (.nextVolume find) := ⟨_, rfl⟩
  rw [← hn] at hrun
  cases he : n.err with
  | some e =>
    rw [he] at hrun
    simp only [OutT.run_ret, Prod.mk.injEq] at hrun
    obtain ⟨rfl, rfl⟩ := hrun
    refine ⟨[(.nextVolume find, n)], [], [], rfl, rfl, .inl ⟨[v], rfl, ?_⟩⟩
    rw [List.append_nil]
    exact .last name tv v h n e hv he
  | none =>
    rw [he] at hrun
    dsimp only at hrun
    rw [OutT.run_bind, storeWide_padded] at hrun
    rcases hl : OutT.run env (hist ++ [(WReq.nextVolume find, n)]) (loop (wtext (padded 320 n.wide)) b) with ⟨y, u⟩
    rw [hl] at hrun
    cases y with
    | running =>
      simp only [Prod.mk.injEq] at hrun
      exact absurd hrun.1.symm hx
    | panic =>
      simp only [Prod.mk.injEq] at hrun
      obtain ⟨rfl, rfl⟩ := hrun
      obtain ⟨T, C, hs, rfl, hC, hE⟩ := ih _ _ _ _ hl (by simp)
      refine ⟨(.nextVolume find, n) :: T, C, hs, rfl, hC, .inr ⟨rfl, ?_⟩⟩
      rcases hE with ⟨vs, h, -⟩ | ⟨-, hE⟩
      · cases h
      · exact .more name _ tv T v _ n hs hv he (wtext_ctext _) hE
    | ret vs =>
      simp only [OutT.run_ret, List.append_nil, Prod.mk.injEq] at hrun
      obtain ⟨rfl, rfl⟩ := hrun
      obtain ⟨T, C, hs, rfl, hC, hE⟩ := ih _ _ _ _ hl (by simp)
      refine ⟨(.nextVolume find, n) :: T, C, hs, rfl, hC, .inl ⟨v :: vs, rfl, ?_⟩⟩
      rcases hE with ⟨vs', h, hE⟩ | ⟨h, -⟩
      · cases h
        exact .more name _ tv T v _ n vs hs hv he (wtext_ctext _) hE
      · cases h

theorem winVolumeLoop_run (conv : Wide → Bytes) (beyond : Nat → Byte) (find : Nat) (env : Prog.Env WReq WRep) :
    ∀ (fuel : Nat) (name : Wide) (b : VolBufs) (hist t : Prog.Trace WReq WRep) (x : Out (List WinVol)),
    b.fs.length = 128 → b.data.length = 4096 →
    OutT.run env hist (winVolumeLoop conv beyond find fuel name b) = (x, t) → x ≠ .running →
    ∃ T C hs, t = T ++ C ∧ C.map (·.1) = hs.reverse.map WReq.closeHandle ∧ SearchEnded conv beyond find x name T hs := by
  intro fuel
  induction fuel with
  | zero =>
    intro name b hist t x _ _ h hx
    simp only [winVolumeLoop, OutT.run_running, Prod.mk.injEq] at h
    exact absurd h.1.symm hx
  | succ fuel ih =>
    intro name b hist t x hf hd h hx
    unfold winVolumeLoop at h
    rw [OutT.run_bind] at h
    rcases winVolumeHead_run conv name b.fs hf env hist with ⟨p, hr, hb⟩ |
      ⟨p, i, d, o, bare, v, fsBuf', hr, hf', hbare, hm, hfs, hdt, hpath, hes0, hpt0⟩
    · rw [hr] at h
      simp only [Prod.mk.injEq] at h
      obtain ⟨rfl, rfl⟩ := h
      exact ⟨_, [], [], (List.append_nil _).symm, rfl, .inr ⟨rfl, .mounts name p hb⟩⟩
    · rw [hr] at h
      dsimp only at h
      obtain ⟨tv, htv⟩ : ∃ tv : Prog.Trace WReq WRep,
        tv = [(.volumePaths name, p), (.volumeInfo name, i), (.driveType name, d), (.openVolume bare, o)] := ⟨_, rfl⟩
      rw [← htv] at h
      generalize hist ++ tv = H at h
      cases he : o.err with
      | some e =>
        rw [he] at h
        dsimp only at h
        rcases hr2 : OutT.run env H (winNextVolume find (winVolumeLoop conv beyond find fuel) v { b with fs := fsBuf' })
          with ⟨y, u⟩
        rw [hr2] at h
        simp only [Prod.mk.injEq] at h
        obtain ⟨rfl, rfl⟩ := h
        obtain ⟨T, C, hs, rfl, hC, hE⟩ := winNextVolume_run conv beyond find env _ { b with fs := fsBuf' }
          (fun name hist t x h hx => ih name { b with fs := fsBuf' } hist t x hf' hd h hx) name v none tv H u y
          (by rw [htv]; exact .closed bare p i d o e v hbare he hm hfs hdt hpath hes0 hpt0) hr2 hx
        exact ⟨tv ++ T, C, hs, by simp, hC, hE⟩
      | none =>
        rw [he] at h
        dsimp only at h
        have hclose : ∀ h, ∃ c : WRep, OutT.run env h (OutT.call (.closeHandle o.handle)) =
            (.ret (), [(.closeHandle o.handle, c)]) := fun h => ⟨_, OutT.run_call env h _⟩
        rcases winExtents_run o.handle b.data hd beyond env H with ⟨r, hx1, hbad⟩ | ⟨es, part, data', te, hx1, hdl, hes⟩
        · obtain ⟨c, hc⟩ := hclose (H ++ [(.ioctl o.handle 0x560000 [] 4096 none, r)])
          have hp : OutT.run env H (winExtents o.handle b.data beyond >>= fun y =>
              winNextVolume find (winVolumeLoop conv beyond find fuel) { v with extents := y.1, partition := y.2.1 }
                { fs := List.replicate 128 0#16, data := y.2.2 }) = (.panic, [(.ioctl o.handle 0x560000 [] 4096 none, r)]) := by
            rw [OutT.run_bind, hx1]
          rw [OutT.run_defer_panic env H hp hc] at h
          simp only [Prod.mk.injEq] at h
          obtain ⟨rfl, rfl⟩ := h
          refine ⟨tv ++ [(.ioctl o.handle 0x560000 [] 4096 none, r)], [(.closeHandle o.handle, c)], [o.handle],
            by simp, rfl, .inr ⟨rfl, ?_⟩⟩
          rw [htv]
          exact .extents name bare p i d o r hbare he hbad
        · obtain ⟨w, hw⟩ : ∃ w : WinVol, w = { v with extents := es, partition := part } := ⟨_, rfl⟩
          obtain ⟨b', hb'⟩ : ∃ b' : VolBufs, b' = { fs := List.replicate 128 0#16, data := data' } := ⟨_, rfl⟩
          have hseen : VolumeSeen conv beyond name (tv ++ te) w (some o.handle) := by
            rw [htv, hw]
            exact .opened bare p i d o te _ hbare he hm hfs hdt hpath hes
          rcases hr2 : OutT.run env (H ++ te) (winNextVolume find (winVolumeLoop conv beyond find fuel) w b') with ⟨y, u⟩
          have hp : OutT.run env H (winExtents o.handle b.data beyond >>= fun y =>
              winNextVolume find (winVolumeLoop conv beyond find fuel) { v with extents := y.1, partition := y.2.1 }
                { fs := List.replicate 128 0#16, data := y.2.2 }) = (y, te ++ u) := by
            rw [OutT.run_bind, hx1]
            dsimp only
            rw [← hw, ← hb', hr2]
          obtain ⟨c, hc⟩ := hclose (H ++ (te ++ u))
          have fin : ∀ z : Out (List WinVol), y = z → z ≠ .running →
              ∃ T C hs, tv ++ (te ++ u ++ [(WReq.closeHandle o.handle, c)]) = T ++ C ∧
                C.map (·.1) = hs.reverse.map WReq.closeHandle ∧ SearchEnded conv beyond find z name T hs := by
            intro z hz hzr
            obtain ⟨T, C, hs, rfl, hC, hE⟩ := winNextVolume_run conv beyond find env _ b'
              (fun name hist t x h hx => ih name _ hist t x (by rw [hb']; exact List.length_replicate)
                (by rw [hb']; exact hdl) h hx) name w (some o.handle) (tv ++ te) (H ++ te) u z hseen (by rw [← hz]; exact hr2) hzr
            refine ⟨tv ++ te ++ T, C ++ [(.closeHandle o.handle, c)], o.handle :: hs, by simp, ?_, hE⟩
            rw [List.map_append, hC, List.reverse_cons, List.map_append]
            rfl
          cases y with
          | running =>
            rw [OutT.run_defer_running env H hp] at h
            simp only [Prod.mk.injEq] at h
            exact absurd h.1.symm hx
          | panic =>
            rw [OutT.run_defer_panic env H hp hc] at h
            simp only [Prod.mk.injEq] at h
            obtain ⟨rfl, rfl⟩ := h
            exact fin _ rfl hx
          | ret vs =>
            rw [OutT.run_defer_ret env H hp hc] at h
            simp only [Prod.mk.injEq] at h
            obtain ⟨rfl, rfl⟩ := h
            exact fin _ rfl hx

/-- `EnumVolumes`: the search, the closes, the end of the search, the error mode. -/
theorem winEnumVolumes_run (conv : Wide → Bytes) (beyond : Nat → Byte) (fuel : Nat) (env : Prog.Env WReq WRep)
    (hist t : Prog.Trace WReq WRep) (z : Out (Res (List WinVol)))
    (hrun : OutT.run env hist (winEnumVolumes conv beyond fuel) = (z, t)) (hz : z ≠ .running) :
    ∃ m f x : WRep,
      (∃ e, f.err = some e ∧ z = .ret (.err e) ∧
        t = [(.setErrorMode 1, m), (.firstVolume, f), (.setErrorMode m.n, x)]) ∨
      (f.err = none ∧ ∃ name hs tv tc y s, (∀ vs, s = .ret vs → z = .ret (.ok vs)) ∧ (s = .panic → z = .panic) ∧
        CText (padded 320 f.wide) name ∧
        SearchEnded conv beyond f.handle s name tv hs ∧ tc.map (·.1) = hs.reverse.map WReq.closeHandle ∧
        t = [(.setErrorMode 1, m), (.firstVolume, f)] ++ tv ++ tc ++ [(.closeFind f.handle, y), (.setErrorMode m.n, x)]) := by
  unfold winEnumVolumes at hrun
  rw [OutT.run_ask_bind] at hrun
  obtain ⟨m, hm⟩ : ∃ m, m = env hist (.setErrorMode 1) := ⟨_, rfl⟩
  rw [← hm] at hrun
  generalize hist ++ [(WReq.setErrorMode 1, m)] = H1 at hrun
  have hmode : ∀ h, ∃ x : WRep, OutT.run env h (OutT.call (.setErrorMode m.n)) = (.ret (), [(.setErrorMode m.n, x)]) :=
    fun h => ⟨_, OutT.run_call env h _⟩
  rcases hS : OutT.run env H1 (winSearchVolumes conv beyond fuel) with ⟨s, u⟩
  obtain ⟨x, hx⟩ := hmode (H1 ++ u)
  have hcomb : s = z ∧ t = (.setErrorMode 1, m) :: (u ++ [(.setErrorMode m.n, x)]) := by
    cases s with
    | running =>
      rw [OutT.run_defer_running env H1 hS] at hrun
      simp only [Prod.mk.injEq] at hrun
      exact absurd hrun.1.symm hz
    | panic =>
      rw [OutT.run_defer_panic env H1 hS hx] at hrun
      simp only [Prod.mk.injEq] at hrun
      exact ⟨hrun.1, hrun.2.symm⟩
    | ret a =>
      rw [OutT.run_defer_ret env H1 hS hx] at hrun
      simp only [Prod.mk.injEq] at hrun
      exact ⟨hrun.1, hrun.2.symm⟩
  obtain ⟨rfl, rfl⟩ := hcomb
  unfold winSearchVolumes at hS
  rw [OutT.run_ask_bind] at hS
  obtain ⟨f, hf⟩ : ∃ f, f = env H1 .firstVolume := ⟨_, rfl⟩
  rw [← hf] at hS
  generalize H1 ++ [(WReq.firstVolume, f)] = H2 at hS
  cases he : f.err with
  | some e =>
    rw [he] at hS
    simp only [OutT.run_ret, Prod.mk.injEq] at hS
    obtain ⟨rfl, rfl⟩ := hS
    exact ⟨m, f, x, .inl ⟨e, he, rfl, rfl⟩⟩
  | none =>
    rw [he] at hS
    dsimp only at hS
    rw [OutT.run_bind, storeWide_padded] at hS
    obtain ⟨b, hb⟩ : ∃ b : VolBufs, b = {} := ⟨_, rfl⟩
    rw [← hb] at hS
    have hb1 : b.fs.length = 128 := by rw [hb]; exact List.length_replicate
    have hb2 : b.data.length = 4096 := by rw [hb]; exact List.length_replicate
    rcases hl : OutT.run env H2 (winVolumeLoop conv beyond f.handle fuel (wtext (padded 320 f.wide)) b) with ⟨o, tv⟩
    obtain ⟨y, hy⟩ : ∃ y : WRep, OutT.run env (H2 ++ tv) (OutT.call (.closeFind f.handle)) =
      (.ret (), [(.closeFind f.handle, y)]) := ⟨_, OutT.run_call env _ _⟩
    refine ⟨m, f, x, .inr ⟨he, ?_⟩⟩
    cases o with
    | running =>
      rw [OutT.run_defer_running env H2 hl] at hS
      simp only [Prod.mk.injEq] at hS
      exact absurd hS.1.symm hz
    | panic =>
      rw [OutT.run_defer_panic env H2 hl hy] at hS
      simp only [Prod.mk.injEq] at hS
      obtain ⟨rfl, rfl⟩ := hS
      obtain ⟨T, C, hs, rfl, hC, hE⟩ := winVolumeLoop_run conv beyond f.handle env fuel _ b H2 tv _ hb1 hb2 hl (by simp)
      exact ⟨_, hs, T, C, y, .panic, (fun vs h => by cases h), fun _ => rfl, wtext_ctext _, hE, hC, by simp⟩
    | ret vs =>
      rw [OutT.run_defer_ret env H2 hl hy] at hS
      simp only [OutT.run_ret, List.append_nil, Prod.mk.injEq] at hS
      obtain ⟨rfl, rfl⟩ := hS
      obtain ⟨T, C, hs, rfl, hC, hE⟩ := winVolumeLoop_run conv beyond f.handle env fuel _ b H2 tv _ hb1 hb2 hl (by simp)
      exact ⟨_, hs, T, C, y, .ret vs, (fun vs' h => by cases h; rfl), (fun h => by cases h), wtext_ctext _, hE, hC, by simp⟩

/-- C108: enumerating volumes, when it returns. The error of the first search is returned; otherwise the volumes are those
of Windows' search in order, as `Volumes` says. All volumes opened are closed at the end, last one first, the search is
closed, and the error mode found at the beginning is restored in both cases. -/
theorem win_enum_volumes (conv : Wide → Bytes) (beyond : Nat → Byte) (fuel : Nat) (env : Prog.Env WReq WRep)
    (hist t : Prog.Trace WReq WRep) (res : Res (List WinVol))
    (hrun : OutT.run env hist (winEnumVolumes conv beyond fuel) = (.ret res, t)) :
    ∃ m f x : WRep,
      (∃ e, f.err = some e ∧ res = .err e ∧
        t = [(.setErrorMode 1, m), (.firstVolume, f), (.setErrorMode m.n, x)]) ∨
      (f.err = none ∧ ∃ name vs hs tv tc y, res = .ok vs ∧ CText (padded 320 f.wide) name ∧
        Volumes conv beyond f.handle name tv vs hs ∧ tc.map (·.1) = hs.reverse.map WReq.closeHandle ∧
        t = [(.setErrorMode 1, m), (.firstVolume, f)] ++ tv ++ tc ++ [(.closeFind f.handle, y), (.setErrorMode m.n, x)]) := by
  obtain ⟨m, f, x, ⟨e, h1, h2, h3⟩ | ⟨h1, name, hs, tv, tc, y, s, h2, h3, h4, h5, h6, h7⟩⟩ :=
    winEnumVolumes_run conv beyond fuel env hist t _ hrun (by simp)
  · cases h2
    exact ⟨m, f, x, .inl ⟨e, h1, rfl, h3⟩⟩
  · rcases h5 with ⟨vs, rfl, hv⟩ | ⟨rfl, -⟩
    · have := h2 vs rfl
      cases this
      exact ⟨m, f, x, .inr ⟨h1, name, vs, hs, tv, tc, y, rfl, h4, hv, h6, h7⟩⟩
    · have := h3 rfl
      cases this

/-- C114: an enumeration that panics. The search for volumes breaks off, as `VolumesPanic` says, at a bad answer: mount points
whose first text has no end within 4096 characters, or more than 171 extents. All volumes opened before, that one
included, are closed, last one first, the search is closed and the error mode restored before the panic goes on. -/
theorem win_volumes_unwind (conv : Wide → Bytes) (beyond : Nat → Byte) (fuel : Nat) (env : Prog.Env WReq WRep)
    (hist t : Prog.Trace WReq WRep) (hrun : OutT.run env hist (winEnumVolumes conv beyond fuel) = (.panic, t)) :
    ∃ (m f x y : WRep) (name : Wide) (hs : List Nat) (tv tc : Prog.Trace WReq WRep), f.err = none ∧
      CText (padded 320 f.wide) name ∧ VolumesPanic conv beyond f.handle name tv hs ∧
      tc.map (·.1) = hs.reverse.map WReq.closeHandle ∧
      t = [(.setErrorMode 1, m), (.firstVolume, f)] ++ tv ++ tc ++ [(.closeFind f.handle, y), (.setErrorMode m.n, x)] := by
  obtain ⟨m, f, x, ⟨e, -, h2, -⟩ | ⟨h1, name, hs, tv, tc, y, s, h2, h3, h4, h5, h6, h7⟩⟩ :=
    winEnumVolumes_run conv beyond fuel env hist t _ hrun (by simp)
  · cases h2
  · rcases h5 with ⟨vs, rfl, -⟩ | ⟨-, hv⟩
    · have := h2 vs rfl
      cases this
    · exact ⟨m, f, x, y, name, hs, tv, tc, h1, h4, hv, h6, h7⟩

/-- C109: it panics only if Windows gave a bad answer: mount points whose first text has no end within 4096 characters, or
more than 171 extents. -/
theorem win_volumes_panic (conv : Wide → Bytes) (beyond : Nat → Byte) (fuel : Nat) (env : Prog.Env WReq WRep)
    (hist t : Prog.Trace WReq WRep) (hrun : OutT.run env hist (winEnumVolumes conv beyond fuel) = (.panic, t)) :
    ∃ x ∈ t, BadAnswer x := by
  obtain ⟨m, f, x, y, name, hs, tv, tc, -, -, hv, -, rfl⟩ := win_volumes_unwind conv beyond fuel env hist t hrun
  have key : ∀ {name tv hs}, VolumesPanic conv beyond f.handle name tv hs → ∃ x ∈ tv, BadAnswer x := by
    intro name tv hs h
    induction h with
    | mounts name p hb => exact ⟨_, List.mem_singleton.mpr rfl, hb⟩
    | extents name bare p i d o r _ _ hb => exact ⟨(.ioctl o.handle 0x560000 [] 4096 none, r), by simp, hb⟩
    | more name name' t u v h n hs _ _ _ _ ih =>
      obtain ⟨x, hx, hb⟩ := ih
      exact ⟨x, by simp [hx], hb⟩
  obtain ⟨x, hx, hb⟩ := key hv
  exact ⟨x, by simp [hx], hb⟩

/-- C109: conversely, an enumeration that returns has seen none: every list of mount points ended within 4096 characters,
and no answer announced more than 171 extents. -/
theorem win_volumes_return (conv : Wide → Bytes) (beyond : Nat → Byte) (fuel : Nat) (env : Prog.Env WReq WRep)
    (hist t : Prog.Trace WReq WRep) (res : Res (List WinVol))
    (hrun : OutT.run env hist (winEnumVolumes conv beyond fuel) = (.ret res, t)) :
    (∀ name r, (.volumePaths name, r) ∈ t → r.err = none → 0 < r.n → 0 ∈ padded 4096 r.wide) ∧
    (∀ h r, (.ioctl h 0x560000 [] 4096 none, r) ∈ t → r.err = none → 4 ≤ r.out.length → leVal (r.out.take 4) ≤ 171) := by
  have hm : ∀ (name name' : Wide) (r p : WRep) ms, MountsSeen conv p ms → (WReq.volumePaths name, r) = (.volumePaths name', p) →
      r.err = none → 0 < r.n → 0 ∈ padded 4096 r.wide := by
    intro name name' r p ms h heq he hn
    obtain ⟨-, rfl⟩ := Prod.mk.inj heq
    unfold MountsSeen at h
    rw [if_pos ⟨he, hn⟩] at h
    obtain ⟨text, hc, hl, -⟩ := h
    have hlen : (padded 4096 r.wide).length = 4096 := by rw [← storeWide_padded, storeWide_length, List.length_replicate]
    exact List.mem_of_getElem? (hc.stop (by omega))
  have hcount : ∀ (old out : Bytes), old.length = 4096 → 4 ≤ out.length → extentCount (delivered old out) = leVal (out.take 4) := by
    intro old out h1 h2
    unfold extentCount delivered slice
    congr 1
    rw [List.drop_zero, List.take_append_of_le_length (by rw [List.length_take]; omega), List.take_take]
    congr 1
    omega
  have hx : ∀ h' t es part, ExtentsSeen h' beyond t es part →
      (∀ name r, (.volumePaths name, r) ∉ t) ∧
      ∀ h r, (.ioctl h 0x560000 [] 4096 none, r) ∈ t → r.err = none → 4 ≤ r.out.length → leVal (r.out.take 4) ≤ 171 := by
    intro h' t es part he
    cases he with
    | failed r e he =>
      refine ⟨by simp, fun h r' hmem he' _ => ?_⟩
      simp only [List.mem_singleton, Prod.mk.injEq] at hmem
      rw [hmem.2, he] at he'
      cases he'
    | none r old he hl hz =>
      refine ⟨by simp, fun h r' hmem he' h4 => ?_⟩
      simp only [List.mem_singleton, Prod.mk.injEq] at hmem
      rw [hmem.2] at h4 ⊢
      rw [← hcount old r.out hl h4, hz]
      omega
    | some r q old n he hl hz _ hn =>
      refine ⟨by simp, fun h r' hmem he' h4 => ?_⟩
      simp only [List.mem_cons, Prod.mk.injEq, WReq.ioctl.injEq, List.not_mem_nil, or_false] at hmem
      rcases hmem with ⟨-, rfl⟩ | ⟨⟨-, h2, -⟩, -⟩
      · rw [← hcount old r'.out hl h4, hz]
        exact hn
      · omega
  have hv : ∀ name t v h, VolumeSeen conv beyond name t v h →
      (∀ name r, (.volumePaths name, r) ∈ t → r.err = none → 0 < r.n → 0 ∈ padded 4096 r.wide) ∧
      (∀ h r, (.ioctl h 0x560000 [] 4096 none, r) ∈ t → r.err = none → 4 ≤ r.out.length → leVal (r.out.take 4) ≤ 171) := by
    intro name t v h hs
    cases hs with
    | closed bare p i d o e v _ _ hms _ _ _ _ =>
      refine ⟨fun nm r hmem => ?_, fun h r hmem => by simp at hmem⟩
      simp only [List.mem_cons, Prod.mk.injEq, List.not_mem_nil, or_false, reduceCtorEq, false_and] at hmem
      exact hm nm name r p _ hms (Prod.ext hmem.1 hmem.2)
    | opened bare p i d o t' v _ _ hms _ _ _ hes =>
      obtain ⟨x1, x2⟩ := hx _ _ _ _ hes
      refine ⟨fun nm r hmem => ?_, fun h r hmem => ?_⟩
      · rw [List.mem_append] at hmem
        rcases hmem with hmem | hmem
        · simp only [List.mem_cons, Prod.mk.injEq, List.not_mem_nil, or_false, reduceCtorEq, false_and] at hmem
          exact hm nm name r p _ hms (Prod.ext hmem.1 hmem.2)
        · exact absurd hmem (x1 nm r)
      · rw [List.mem_append] at hmem
        rcases hmem with hmem | hmem
        · simp at hmem
        · exact x2 h r hmem
  have hvs : ∀ find name t vs hs, Volumes conv beyond find name t vs hs →
      (∀ name r, (.volumePaths name, r) ∈ t → r.err = none → 0 < r.n → 0 ∈ padded 4096 r.wide) ∧
      (∀ h r, (.ioctl h 0x560000 [] 4096 none, r) ∈ t → r.err = none → 4 ≤ r.out.length → leVal (r.out.take 4) ≤ 171) := by
    intro find name t vs hs h
    induction h with
    | last name t v h n e hs _ =>
      obtain ⟨a, b⟩ := hv _ _ _ _ hs
      refine ⟨fun nm r hmem => a nm r (by simpa using hmem), fun h r hmem => b h r (by simpa using hmem)⟩
    | more name name' t u v h n vs hs hvol _ _ _ ih =>
      obtain ⟨a, b⟩ := hv _ _ _ _ hvol
      refine ⟨fun nm r hmem => ?_, fun h r hmem => ?_⟩
      · simp only [List.mem_append, List.mem_cons, Prod.mk.injEq, reduceCtorEq, false_and, false_or] at hmem
        rcases hmem with hmem | hmem
        · exact a nm r hmem
        · exact ih.1 nm r hmem
      · simp only [List.mem_append, List.mem_cons, Prod.mk.injEq, reduceCtorEq, false_and, false_or] at hmem
        rcases hmem with hmem | hmem
        · exact b h r hmem
        · exact ih.2 h r hmem
  obtain ⟨m, f, x, ⟨e, -, -, rfl⟩ | ⟨-, name, vs, hs, tv, tc, y, -, -, hvol, htc, rfl⟩⟩ :=
    win_enum_volumes conv beyond fuel env hist t res hrun
  · exact ⟨by simp, by simp⟩
  · obtain ⟨a, b⟩ := hvs _ _ _ _ _ hvol
    have hnc : ∀ q r, (q, r) ∈ tc → ∃ h, q = .closeHandle h := by
      intro q r hmem
      have : q ∈ tc.map (·.1) := List.mem_map.mpr ⟨_, hmem, rfl⟩
      rw [htc, List.mem_map] at this
      obtain ⟨h, -, rfl⟩ := this
      exact ⟨h, rfl⟩
    refine ⟨fun nm r hmem => ?_, fun h r hmem => ?_⟩
    · simp only [List.mem_append, List.mem_cons, Prod.mk.injEq, reduceCtorEq, false_and, false_or, or_false,
        List.not_mem_nil] at hmem
      rcases hmem with hmem | hmem
      · exact a nm r hmem
      · obtain ⟨h, hh⟩ := hnc _ _ hmem
        cases hh
    · simp only [List.mem_append, List.mem_cons, Prod.mk.injEq, reduceCtorEq, false_and, false_or, or_false,
        List.not_mem_nil] at hmem
      rcases hmem with hmem | hmem
      · exact b h r hmem
      · obtain ⟨h, hh⟩ := hnc _ _ hmem
        cases hh

/-! ### Handles -/

theorem volumesOpened_append (a b : Prog.Trace WReq WRep) : volumesOpened (a ++ b) = volumesOpened a ++ volumesOpened b := by
  simp [volumesOpened, List.filterMap_append]

theorem volumeSeen_handles {conv : Wide → Bytes} {beyond : Nat → Byte} {name : Wide} {t : Prog.Trace WReq WRep} {v : WinVol}
    {h : Option Nat} (hs : VolumeSeen conv beyond name t v h) :
    volumesOpened t = h.toList ∧ handlesClosed t = [] ∧ handlesOpened t = [] := by
  cases hs with
  | closed bare p i d o e v _ he _ _ _ _ _ => exact ⟨by simp [volumesOpened, he], rfl, rfl⟩
  | opened bare p i d o t' v _ he _ _ _ _ hes =>
    have hx : ∀ {k t es part}, ExtentsSeen k beyond t es part →
        volumesOpened t = [] ∧ handlesClosed t = [] ∧ handlesOpened t = [] := by
      intro k t es part hes
      cases hes <;> exact ⟨rfl, rfl, rfl⟩
    replace hx := hx hes
    rw [volumesOpened_append, handlesClosed_append, handlesOpened_append, hx.1, hx.2.1, hx.2.2]
    exact ⟨by simp [volumesOpened, he], rfl, rfl⟩

theorem volumes_handles {conv : Wide → Bytes} {beyond : Nat → Byte} {find : Nat} {name : Wide} {t : Prog.Trace WReq WRep}
    {vs : List WinVol} {hs : List Nat} (h : Volumes conv beyond find name t vs hs) :
    volumesOpened t = hs ∧ handlesClosed t = [] ∧ handlesOpened t = [] := by
  induction h with
  | last name t v h n e hs _ =>
    obtain ⟨a, b, c⟩ := volumeSeen_handles hs
    rw [volumesOpened_append, handlesClosed_append, handlesOpened_append, a, b, c]
    exact ⟨by simp [volumesOpened], rfl, rfl⟩
  | more name name' t u v h n vs hs hvol _ _ _ ih =>
    obtain ⟨a, b, c⟩ := volumeSeen_handles hvol
    rw [volumesOpened_append, handlesClosed_append, handlesOpened_append, a, b, c]
    refine ⟨?_, ?_, ?_⟩
    · rw [← ih.1]; rfl
    · exact ih.2.1
    · exact ih.2.2

theorem volumesPanic_handles {conv : Wide → Bytes} {beyond : Nat → Byte} {find : Nat} {name : Wide}
    {t : Prog.Trace WReq WRep} {hs : List Nat} (h : VolumesPanic conv beyond find name t hs) :
    volumesOpened t = hs ∧ handlesClosed t = [] ∧ handlesOpened t = [] := by
  induction h with
  | mounts name p _ => exact ⟨rfl, rfl, rfl⟩
  | extents name bare p i d o r _ he _ => exact ⟨by simp [volumesOpened, he], rfl, rfl⟩
  | more name name' t u v h n hs hvol _ _ _ ih =>
    obtain ⟨a, b, c⟩ := volumeSeen_handles hvol
    rw [volumesOpened_append, handlesClosed_append, handlesOpened_append, a, b, c]
    refine ⟨?_, ?_, ?_⟩
    · rw [← ih.1]; rfl
    · exact ih.2.1
    · exact ih.2.2

theorem closes_only : ∀ {l : List Nat} {tc : Prog.Trace WReq WRep}, tc.map (·.1) = l.map WReq.closeHandle →
    handlesOpened tc = [] ∧ handlesClosed tc = l ∧ volumesOpened tc = [] := by
  intro l
  induction l with
  | nil => intro tc h; simp at h; subst h; exact ⟨rfl, rfl, rfl⟩
  | cons k l ih =>
    intro tc h
    cases tc with
    | nil => simp at h
    | cons y tc =>
      simp only [List.map_cons, List.cons.injEq] at h
      obtain ⟨q1, q2, q3⟩ := ih h.2
      obtain ⟨q, r⟩ := y
      obtain ⟨rfl, -⟩ := h
      exact ⟨q1, by rw [← q2]; rfl, q3⟩

/-- C110, C114: an enumeration that ends, by returning or by a panic, has closed every volume it opened, exactly once, in the
opposite order, and opened no other handle. -/
theorem win_volumes_handles (conv : Wide → Bytes) (beyond : Nat → Byte) (fuel : Nat) (env : Prog.Env WReq WRep)
    (hist t : Prog.Trace WReq WRep) (x : Out (Res (List WinVol)))
    (hrun : OutT.run env hist (winEnumVolumes conv beyond fuel) = (x, t)) (hx : x ≠ .running) :
    handlesClosed t = (volumesOpened t).reverse ∧ handlesOpened t = [] := by
  obtain ⟨m, f, x, ⟨e, -, -, rfl⟩ | ⟨-, name, hs, tv, tc, y, s, -, -, -, hE, htc, rfl⟩⟩ :=
    winEnumVolumes_run conv beyond fuel env hist t _ hrun hx
  · exact ⟨rfl, rfl⟩
  · obtain ⟨a, b, c⟩ : volumesOpened tv = hs ∧ handlesClosed tv = [] ∧ handlesOpened tv = [] := by
      rcases hE with ⟨vs, -, hv⟩ | ⟨-, hv⟩
      · exact volumes_handles hv
      · exact volumesPanic_handles hv
    obtain ⟨c1, c2, c3⟩ := closes_only htc
    simp only [handlesClosed_append, handlesOpened_append, volumesOpened_append, a, b, c, c1, c2, c3]
    exact ⟨by simp [handlesClosed, volumesOpened], rfl⟩

/-! ### Termination -/

theorem winVolumeHead_halts (conv : Wide → Bytes) (name fsBuf : Wide) : OutT.Halts (winVolumeHead conv name fsBuf) := by
  unfold winVolumeHead
  refine OutT.halts_bind ?_ (fun ms => ?_)
  · unfold winMounts
    refine OutT.halts_bind (OutT.halts_ask _) (fun r => OutT.halts_ite ?_ (OutT.halts_ret _))
    exact OutT.halts_bind (OutT.halts_lift _) (fun _ => OutT.halts_ret _)
  · refine OutT.halts_bind ?_ (fun x => ?_)
    · unfold winFilesystem
      exact OutT.halts_bind (OutT.halts_ask _) (fun _ => OutT.halts_ret _)
    · exact OutT.halts_bind (OutT.halts_ask _) (fun d => OutT.halts_bind (OutT.halts_ask _) (fun r => OutT.halts_ret _))

theorem winExtents_halts (h : Nat) (data : Bytes) (beyond : Nat → Byte) : OutT.Halts (winExtents h data beyond) := by
  unfold winExtents
  refine OutT.halts_bind (OutT.halts_ask _) (fun r => ?_)
  split
  · exact OutT.halts_ret _
  · refine OutT.halts_bind (OutT.halts_lift _) (fun es => ?_)
    split
    · exact OutT.halts_ret _
    · refine OutT.halts_bind ?_ (fun _ => OutT.halts_ret _)
      unfold winPartitionInfo
      generalize (144 : Nat) = n
      refine OutT.halts_bind (OutT.halts_ask _) (fun r => ?_)
      split
      · exact OutT.halts_ret _
      · exact OutT.halts_ite (OutT.halts_ret _) (OutT.halts_ite (OutT.halts_ret _) (OutT.halts_ret _))

theorem call_halts (q : WReq) : OutT.Halts (OutT.call q : WinM Unit) :=
  OutT.halts_bind (OutT.halts_ask _) (fun _ => OutT.halts_ret _)

theorem searches_append (a b : Prog.Trace WReq WRep) : searches (a ++ b) = searches a + searches b := by
  simp [searches, List.countP_append]

theorem winVolumeLoop_ends (conv : Wide → Bytes) (beyond : Nat → Byte) (find n : Nat) (env : Prog.Env WReq WRep)
    (hn : ∀ hist f, n ≤ searches hist → (env hist (.nextVolume f)).err ≠ none) :
    ∀ (fuel : Nat) (name : Wide) (b : VolBufs) (hist : Prog.Trace WReq WRep), n < fuel + searches hist → 0 < fuel →
    (OutT.run env hist (winVolumeLoop conv beyond find fuel name b)).1 ≠ .running := by
  intro fuel
  induction fuel with
  | zero => intro _ _ _ _ h; omega
  | succ fuel ih =>
    intro name b hist hlt _
    have next : ∀ v b' H, searches hist ≤ searches H →
        (OutT.run env H (winNextVolume find (winVolumeLoop conv beyond find fuel) v b')).1 ≠ .running := by
      intro v b' H hH
      unfold winNextVolume
      rw [OutT.run_ask_bind]
      obtain ⟨q, hq⟩ : ∃ q, q = env H (.nextVolume find) := ⟨_, rfl⟩
      rw [← hq]
      cases he : q.err with
      | some e => simp [OutT.run_ret]
      | none =>
        dsimp only
        have hs : searches H < n := by
          rcases Nat.lt_or_ge (searches H) n with h | h
          · exact h
          · exact absurd (by rw [← hq]; exact he) (hn H find h)
        rw [OutT.run_bind]
        have hs1 : searches [(WReq.nextVolume find, q)] = 1 := rfl
        have := ih (wtext (storeWide (List.replicate 320 0#16) q.wide)) b' (H ++ [(WReq.nextVolume find, q)])
          (by rw [searches_append, hs1]; omega) (by omega)
        rcases hr2 : OutT.run env (H ++ [(WReq.nextVolume find, q)]) (winVolumeLoop conv beyond find fuel
          (wtext (storeWide (List.replicate 320 0#16) q.wide)) b') with ⟨o2, t2⟩
        rw [hr2] at this
        cases o2 with
        | running => exact absurd rfl this
        | panic => simp
        | ret y => simp [OutT.run_ret]
    unfold winVolumeLoop
    rw [OutT.run_bind]
    have hh := OutT.halts_run (winVolumeHead_halts conv name b.fs) env hist
    rcases hr : OutT.run env hist (winVolumeHead conv name b.fs) with ⟨o, t⟩
    rw [hr] at hh
    cases o with
    | running => exact absurd rfl hh
    | panic => simp
    | ret x =>
      obtain ⟨v, fsBuf, r⟩ := x
      dsimp only
      cases r.err with
      | some e => exact next _ _ _ (by rw [searches_append]; omega)
      | none =>
        refine OutT.run_defer_ne_running env _ ?_ (fun h => OutT.halts_run (call_halts _) env h)
        rw [OutT.run_bind]
        have hh := OutT.halts_run (winExtents_halts r.handle b.data beyond) env (hist ++ t)
        rcases hr2 : OutT.run env (hist ++ t) (winExtents r.handle b.data beyond) with ⟨o2, t2⟩
        rw [hr2] at hh
        cases o2 with
        | running => exact absurd rfl hh
        | panic => simp
        | ret y => exact next _ _ _ (by rw [searches_append, searches_append]; omega)

/-- C108: it ends when Windows' search ends: after `n` searches at most `n + 1` rounds. -/
theorem win_volumes_end (conv : Wide → Bytes) (beyond : Nat → Byte) (n fuel : Nat) (env : Prog.Env WReq WRep)
    (hn : ∀ hist f, n ≤ searches hist → (env hist (.nextVolume f)).err ≠ none) (hf : n < fuel)
    (hist : Prog.Trace WReq WRep) : (OutT.run env hist (winEnumVolumes conv beyond fuel)).1 ≠ .running := by
  unfold winEnumVolumes
  rw [OutT.run_ask_bind]
  generalize env hist (.setErrorMode 1) = m
  dsimp only
  generalize hist ++ [(WReq.setErrorMode 1, m)] = H1
  refine OutT.run_defer_ne_running env _ ?_ (fun h => OutT.halts_run (call_halts _) env h)
  unfold winSearchVolumes
  rw [OutT.run_ask_bind]
  obtain ⟨f, hf'⟩ : ∃ f, f = env H1 .firstVolume := ⟨_, rfl⟩
  rw [← hf']
  generalize H1 ++ [(WReq.firstVolume, f)] = H2
  cases he : f.err with
  | some e => simp [OutT.run_ret]
  | none =>
    dsimp only
    rw [OutT.run_bind]
    generalize wtext (storeWide (List.replicate 320 0#16) f.wide) = name
    have hl := OutT.run_defer_ne_running (d := OutT.call (WReq.closeFind f.handle)) env _
      (winVolumeLoop_ends conv beyond f.handle n env hn fuel name {} H2 (by omega) (by omega))
      (fun h => OutT.halts_run (call_halts _) env h)
    rcases hr : OutT.run env H2 (OutT.defer (winVolumeLoop conv beyond f.handle fuel name {})
      (OutT.call (WReq.closeFind f.handle))) with ⟨o, t⟩
    rw [hr] at hl
    cases o with
    | running => exact absurd rfl hl
    | panic => simp
    | ret y => simp [OutT.run_ret]

/-! ### Volumes of a drive, drive of a volume -/

theorem win_volume_info (v : WinVol) : v.info = volumeReported v := by
  unfold WinVol.info volumeReported
  cases v.partition <;> rfl

/-- C111: the list has all volumes in order; the volumes of a drive are, in order, those whose first extent lies on the disk
with the drive's number. Further extents do not count. -/
theorem win_find_volumes (vs : List WinVol) (n : Int) :
    winVolumeList vs = vs.map volumeReported ∧
    winFindVolumes vs n = (vs.filter (fun v => BeginsOn v n)).map volumeReported := by
  refine ⟨?_, ?_⟩
  · unfold winVolumeList
    exact List.map_congr_left (fun v _ => win_volume_info v)
  · unfold winFindVolumes
    induction vs with
    | nil => rfl
    | cons v vs ih =>
      rw [List.filterMap_cons, List.filter_cons]
      cases hx : v.extents with
      | nil =>
        have : ¬ BeginsOn v n := fun ⟨x, h1, _⟩ => by rw [hx] at h1; cases h1
        simp only [this, decide_false, Bool.false_eq_true, if_false]
        exact ih
      | cons x xs =>
        by_cases hd : (x.disk.toNat : Int) = n
        · have : BeginsOn v n := ⟨x, by rw [hx]; rfl, hd⟩
          simp only [hd, this, decide_true, if_true, List.map_cons]
          rw [ih, win_volume_info]
        · have : ¬ BeginsOn v n := fun ⟨y, h1, h2⟩ => by rw [hx] at h1; cases h1; exact hd h2
          simp only [hd, this, decide_false, Bool.false_eq_true, if_false]
          exact ih

/-- C111: for a drive whose number Windows did not tell, the volumes of disk 0 are reported. -/
theorem win_find_unknown (path : Bytes) (b : WinBasic) (o : WinOpened) (ho : FromBasic path b o) (hn : b.devNum = none)
    (vs : List WinVol) :
    winFindVolumes vs o.devNum = (vs.filter (fun v => BeginsOn v 0)).map volumeReported := by
  rw [(win_find_volumes vs o.devNum).2]
  have : o.devNum = 0 := by rw [ho.number, hn]
  rw [this]

theorem trimBackslash_same (a b : Bytes) : trimBackslash a = trimBackslash b ↔ SamePath a b := by
  have h1 : ∀ a : Bytes, a = trimBackslash a ++ [0x5c] ∨ (a = trimBackslash a ∧ (trimBackslash a).getLast? ≠ some 0x5c) := by
    intro a
    unfold trimBackslash
    by_cases h : a.getLast? = some 0x5c#8
    · rw [if_pos h]
      left
      have hne : a ≠ [] := by intro h'; rw [h'] at h; cases h
      have := List.dropLast_concat_getLast hne
      rw [List.getLast?_eq_some_getLast hne] at h
      simp only [Option.some.injEq] at h
      rw [h] at this
      exact this.symm
    · rw [if_neg h]
      exact .inr ⟨rfl, h⟩
  have h2 : ∀ a c : Bytes, (a = c ++ [0x5c] ∨ (a = c ∧ c.getLast? ≠ some 0x5c)) → trimBackslash a = c := by
    rintro a c (rfl | ⟨rfl, h⟩)
    · unfold trimBackslash
      rw [if_pos (by simp), List.dropLast_concat]
    · unfold trimBackslash
      exact if_neg h
  constructor
  · intro h
    refine ⟨trimBackslash a, h1 a, ?_⟩
    rw [h]
    exact h1 b
  · rintro ⟨c, ha, hb⟩
    rw [h2 a c ha, h2 b c hb]

/-- C112: opening the drive of a volume. If no listed volume has that path, up to one backslash at the end, there is neither
a drive nor an error, and nothing is opened; likewise if the first that has it has no extents. Otherwise the physical
drive of its first extent is opened, by its number in decimal, and the result is that of opening it. -/
theorem win_open_by_volume (open' : Bytes → WinM (Res WinOpened)) (vs : List WinVol) (path : Bytes)
    (env : Prog.Env WReq WRep) (hist : Prog.Trace WReq WRep) :
    ((∀ v ∈ vs, ¬ SamePath v.path path) ∧
      OutT.run env hist (winOpenByVolumePath open' vs path) = (.ret none, [])) ∨
    ∃ before v after, vs = before ++ v :: after ∧ SamePath v.path path ∧ (∀ u ∈ before, ¬ SamePath u.path path) ∧
      ((v.extents = [] ∧ OutT.run env hist (winOpenByVolumePath open' vs path) = (.ret none, [])) ∨
       ∃ x text, v.extents[0]? = some x ∧ DecimalOf x.disk.toNat text ∧
        (OutT.run env hist (winOpenByVolumePath open' vs path)).2 =
          (OutT.run env hist (open' (ascii "\\\\.\\PhysicalDrive" ++ text))).2 ∧
        ∀ r, (OutT.run env hist (winOpenByVolumePath open' vs path)).1 = .ret (some r) ↔
          (OutT.run env hist (open' (ascii "\\\\.\\PhysicalDrive" ++ text))).1 = .ret r) := by
  unfold winOpenByVolumePath
  have hp : ∀ v : WinVol, (trimBackslash v.path == trimBackslash path) = true ↔ SamePath v.path path := by
    intro v
    rw [beq_iff_eq, trimBackslash_same]
  cases hf : vs.find? (fun v => trimBackslash v.path == trimBackslash path) with
  | none =>
    left
    rw [List.find?_eq_none] at hf
    exact ⟨fun v hv hs => hf v hv ((hp v).mpr hs), rfl⟩
  | some v =>
    right
    rw [List.find?_eq_some_iff_append] at hf
    obtain ⟨hv, before, after, hvs, hbefore⟩ := hf
    refine ⟨before, v, after, hvs, (hp v).mp hv, fun u hu hs => ?_, ?_⟩
    · have := hbefore u hu
      rw [(hp u).mpr hs] at this
      cases this
    · dsimp only
      cases hx : v.extents with
      | nil => exact .inl ⟨rfl, rfl⟩
      | cons x xs =>
        right
        refine ⟨x, digits x.disk.toNat, rfl, digits_decimal _, ?_⟩
        dsimp only
        rw [OutT.run_bind]
        unfold physicalDrive
        rcases OutT.run env hist (open' (ascii "\\\\.\\PhysicalDrive" ++ digits x.disk.toNat)) with ⟨o, t⟩
        cases o with
        | panic => exact ⟨rfl, fun r => ⟨fun h => (by cases h), fun h => (by cases h)⟩⟩
        | running => exact ⟨rfl, fun r => ⟨fun h => (by cases h), fun h => (by cases h)⟩⟩
        | ret r' =>
          simp only [OutT.run_ret, List.append_nil, Out.ret.injEq, Option.some.injEq, true_and]
          intro r
          trivial

/-- C112: opening the drive of a partition opens the physical drive of that number. -/
theorem win_open_by_partition (open' : Bytes → WinM (Res WinOpened)) (p : WinPart) :
    ∃ text, DecimalOf p.diskNumber.toNat text ∧
      winOpenByPartition open' p = open' (ascii "\\\\.\\PhysicalDrive" ++ text) :=
  ⟨_, digits_decimal _, rfl⟩

/-- C111: the style of a partition as the caller sees it: 2 for GPT (1 in winioctl.h), 1 for MBR (0), 0 for all others. -/
theorem win_partition_style (p : WinPart) :
    (p.style = 1 → p.partitionStyle = 2) ∧ (p.style = 0 → p.partitionStyle = 1) ∧
    (p.style ≠ 0 → p.style ≠ 1 → p.partitionStyle = 0) := by
  unfold WinPart.partitionStyle
  refine ⟨fun h => by rw [if_pos h], fun h => ?_, fun h0 h1 => by rw [if_neg h1, if_neg h0]⟩
  rw [if_neg (by omega), if_pos h]

/-! ### Examples: the hypotheses are met -/

/-- Two volumes: `V1\`, mounted at `C:\` and `D:\`, on disks 2 and 3; `V2\`, which cannot be opened. -/
def sampleVolumes : Prog.Env WReq WRep := fun hist q => match q with
  | .setErrorMode _ => { n := 5 }
  | .firstVolume => { handle := 50, wide := [0x56, 0x31, 0x5c, 0] }
  | .nextVolume _ => if searches hist < 1 then { wide := [0x56, 0x32, 0x5c, 0] } else { err := some (.errno 18) }
  | .volumePaths name => if name = [0x56, 0x31, 0x5c] then
      { n := 9, wide := multiString [[0x43, 0x3a, 0x5c], [0x44, 0x3a, 0x5c]] } else { n := 1, wide := [0] }
  | .volumeInfo name => if name = [0x56, 0x31, 0x5c] then { wide := [0x4e, 0x54, 0x46, 0x53, 0] } else { err := some (.errno 1) }
  | .driveType _ => { n := 3 }
  | .openVolume name => if name = [0x56, 0x31] then { handle := 60 } else { err := some (.errno 5) }
  | .ioctl _ code _ _ _ =>
    if code = 0x560000 then
      { out := leBytes 4 2 ++ zeros 4 ++ (leBytes 4 2 ++ zeros 4 ++ leBytes 8 1048576 ++ leBytes 8 4096) ++
          (leBytes 4 3 ++ zeros 4 ++ leBytes 8 512 ++ leBytes 8 1024) }
    else { out := leBytes 4 0 ++ zeros 28 ++ [7, 1] }
  | _ => {}

/-- C76, C108, C110: one of the two mount points is reported; the volume that cannot be opened is listed without extents;
what was opened is closed and the error mode restored. -/
example : (match OutT.run sampleVolumes [] (winEnumVolumes sampleConv (fun _ => 0) 2) with
    | (.ret (.ok vs), t) => (vs, volumesOpened t, handlesClosed t, (t.reverse.take 3).map (·.1))
    | _ => ([], [], [], [])) =
    ([{ path := ascii "V1", filesystem := ascii "NTFS", mountPoints := [ascii "C:\\"], driveType := 3,
        extents := [{ disk := 2, start := 1048576, length := 4096 }, { disk := 3, start := 512, length := 1024 }],
        partition := some { diskNumber := 2, start := 1048576, length := 4096, style := 0, mbrInfo := some (7, true) } },
      { path := ascii "V2", driveType := 3 }], [60], [60], [.setErrorMode 5, .closeFind 50, .closeHandle 60]) := by
  decide +kernel
example : ∀ hist f, 1 ≤ searches hist → (sampleVolumes hist (.nextVolume f)).err ≠ none := by
  intro hist f h
  show (if searches hist < 1 then ({ wide := [0x56, 0x32, 0x5c, 0] } : WRep) else { err := some (.errno 18) }).err ≠ none
  rw [if_neg (by omega)]
  simp
/-- C109: 172 extents make the enumeration panic, 171 do not; so does a text without an end. -/
example :
    (OutT.run (fun h q => match q with
        | .ioctl _ 0x560000 _ _ _ => { out := leBytes 4 172 }
        | _ => sampleVolumes h q) [] (winEnumVolumes sampleConv (fun _ => 0) 2)).1 = .panic ∧
    (match (OutT.run (fun h q => match q with
        | .ioctl _ 0x560000 _ _ _ => { out := leBytes 4 171 }
        | _ => sampleVolumes h q) [] (winEnumVolumes sampleConv (fun _ => 0) 2)).1 with
      | .ret (.ok (v :: _)) => v.extents.length
      | _ => 0) = 171 ∧
    (OutT.run (fun h q => match q with
        | .volumePaths _ => { n := 4096, wide := List.replicate 4096 0x41 }
        | _ => sampleVolumes h q) [] (winEnumVolumes sampleConv (fun _ => 0) 2)).1 = .panic := by decide +kernel
/-- C114: `V1` answers with 172 extents: it is closed, the search too, and the error mode restored. -/
example : (match OutT.run (fun h q => match q with
        | .ioctl _ 0x560000 _ _ _ => { out := leBytes 4 172 }
        | _ => sampleVolumes h q) [] (winEnumVolumes sampleConv (fun _ => 0) 2) with
    | (.panic, t) => (volumesOpened t, handlesClosed t, (t.reverse.take 3).map (·.1))
    | _ => ([], [], [])) = ([60], [60], [.setErrorMode 5, .closeFind 50, .closeHandle 60]) := by decide +kernel
/-- C111: a volume over disks 2 and 3 belongs to disk 2 only. -/
example : let v : WinVol := { path := [1], extents := [{ disk := 2, start := 0, length := 9 }, { disk := 3, start := 0, length := 9 }] }
    winFindVolumes [v] 2 = [volumeReported v] ∧ winFindVolumes [v] 3 = [] ∧ BeginsOn v 2 ∧ ¬ BeginsOn v 3 := by decide
/-- C111: a drive whose number is unknown. -/
example : ∃ o, FromBasic [0x41] {} o := ⟨winBasicOpened [0x41] {}, by constructor <;> rfl⟩
/-- C112: `V1\` is found by `V1`; its drive is the physical drive 12. -/
example : SamePath (ascii "V1\\") (ascii "V1") ∧ ¬ SamePath (ascii "V1\\") (ascii "V2") := by
  refine ⟨⟨ascii "V1", .inl rfl, .inr ⟨rfl, by decide⟩⟩, fun h => ?_⟩
  have := (trimBackslash_same _ _).mpr h
  revert this
  decide
example : (match (OutT.run sampleVolumes [] (winOpenByVolumePath (fun p => OutT.ret (.ok { devicePath := p }))
    [{ path := ascii "V0" }, { path := ascii "V1", extents := [{ disk := 12, start := 0, length := 9 }] }] (ascii "V1\\"))).1 with
    | .ret (some (.ok o)) => o.devicePath
    | _ => []) = ascii "\\\\.\\PhysicalDrive12" := by decide +kernel

end Dparm
