import Verif.Lemmas.WinFactory
import Verif.Props.WinNvme
import Verif.Props.Text
import Verif.Lemmas.Factory
import Verif.Props.Utils
/-!
# The Windows drive factory (C75, C103 to C106)
-/
namespace Dparm
open Spec

/-! ### The first driver that accepts -/

theorem Spec.FirstAccepted.cons {env : Prog.Env WReq WRep} {hist : Prog.Trace WReq WRep} {ds : List WinOpener} {h i : Nat}
    {x : WinDrv × Driver} {segs : List (Prog.Trace WReq WRep)} {d : WinOpener} {e : GoErr} {seg : Prog.Trace WReq WRep}
    (hd : OutT.run env hist (d h) = (.ret (.err e), seg)) (hf : FirstAccepted env (hist ++ seg) ds h i x segs) :
    FirstAccepted env hist (d :: ds) h (i + 1) x (seg :: segs) where
  count := by simp [hf.count]
  refused := by
    intro j hj
    cases j with
    | zero => exact ⟨d, seg, e, rfl, rfl, by simpa using hd⟩
    | succ j =>
      obtain ⟨d', s', e', h1, h2, h3⟩ := hf.refused j (by omega)
      exact ⟨d', s', e', h1, h2, by simpa [List.append_assoc] using h3⟩
  accepted := by
    obtain ⟨d', s', h1, h2, h3⟩ := hf.accepted
    exact ⟨d', s', h1, h2, by simpa [List.append_assoc] using h3⟩

theorem Spec.NoneAccepted.cons {env : Prog.Env WReq WRep} {hist : Prog.Trace WReq WRep} {ds : List WinOpener} {h : Nat}
    {segs : List (Prog.Trace WReq WRep)} {d : WinOpener} {e : GoErr} {seg : Prog.Trace WReq WRep}
    (hd : OutT.run env hist (d h) = (.ret (.err e), seg)) (hf : NoneAccepted env (hist ++ seg) ds h segs) :
    NoneAccepted env hist (d :: ds) h (seg :: segs) where
  count := by simp [hf.count]
  refused := by
    intro j d' hj
    cases j with
    | zero =>
      simp only [List.getElem?_cons_zero, Option.some.injEq] at hj
      subst hj
      exact ⟨seg, e, rfl, by simpa using hd⟩
    | succ j =>
      obtain ⟨s', e', h2, h3⟩ := hf.refused j d' hj
      exact ⟨s', e', h2, by simpa [List.append_assoc] using h3⟩

theorem Spec.FirstAccepted.uncons {env : Prog.Env WReq WRep} {hist : Prog.Trace WReq WRep} {ds : List WinOpener} {h i : Nat}
    {x : WinDrv × Driver} {segs : List (Prog.Trace WReq WRep)} {d : WinOpener} {seg : Prog.Trace WReq WRep}
    (hf : FirstAccepted env hist (d :: ds) h (i + 1) x (seg :: segs)) :
    (∃ e, OutT.run env hist (d h) = (.ret (.err e), seg)) ∧ FirstAccepted env (hist ++ seg) ds h i x segs := by
  refine ⟨?_, ?_, ?_, ?_⟩
  · obtain ⟨d', s', e, h1, h2, h3⟩ := hf.refused 0 (by omega)
    simp only [List.getElem?_cons_zero, Option.some.injEq] at h1 h2
    subst h1 h2
    exact ⟨e, by simpa using h3⟩
  · have := hf.count; simpa using this
  · intro j hj
    obtain ⟨d', s', e', h1, h2, h3⟩ := hf.refused (j + 1) (by omega)
    exact ⟨d', s', e', h1, h2, by simpa [List.append_assoc] using h3⟩
  · obtain ⟨d', s', h1, h2, h3⟩ := hf.accepted
    exact ⟨d', s', h1, h2, by simpa [List.append_assoc] using h3⟩

theorem Spec.NoneAccepted.uncons {env : Prog.Env WReq WRep} {hist : Prog.Trace WReq WRep} {ds : List WinOpener} {h : Nat}
    {segs : List (Prog.Trace WReq WRep)} {d : WinOpener} {seg : Prog.Trace WReq WRep}
    (hf : NoneAccepted env hist (d :: ds) h (seg :: segs)) :
    (∃ e, OutT.run env hist (d h) = (.ret (.err e), seg)) ∧ NoneAccepted env (hist ++ seg) ds h segs := by
  refine ⟨?_, ?_, ?_⟩
  · obtain ⟨s', e, h2, h3⟩ := hf.refused 0 d rfl
    simp only [List.getElem?_cons_zero, Option.some.injEq] at h2
    subst h2
    exact ⟨e, by simpa using h3⟩
  · have := hf.count; simpa using this
  · intro j d' hj
    obtain ⟨s', e', h2, h3⟩ := hf.refused (j + 1) d' hj
    exact ⟨s', e', h2, by simpa [List.append_assoc] using h3⟩

/-- C75: with any list of drivers, the factory's choice is the first one in the list that accepts the handle: the ones
before it were asked, in order, and refused; the ones after it are not asked (the exchanges are those of the drivers up to
it). There is no choice exactly if all were asked and refused. -/
theorem win_first_driver (ds : List WinOpener) (h : Nat) (env : Prog.Env WReq WRep) (hist t : Prog.Trace WReq WRep) :
    (∀ x, OutT.run env hist (winFirst ds h) = (.ret (some x), t) ↔
      ∃ i segs, FirstAccepted env hist ds h i x segs ∧ t = segs.flatten) ∧
    (OutT.run env hist (winFirst ds h) = (.ret none, t) ↔ ∃ segs, NoneAccepted env hist ds h segs ∧ t = segs.flatten) := by
  induction ds generalizing hist t with
  | nil =>
    refine ⟨fun x => ⟨fun h1 => ?_, ?_⟩, fun h1 => ?_, ?_⟩
    · simp [winFirst] at h1
    · rintro ⟨i, segs, hf, -⟩
      obtain ⟨d, -, h1, -⟩ := hf.accepted
      simp at h1
    · simp only [winFirst, OutT.run_ret, Prod.mk.injEq, true_and] at h1
      exact ⟨[], ⟨rfl, by simp⟩, h1.symm⟩
    · rintro ⟨segs, hf, rfl⟩
      have := hf.count
      simp only [List.length_nil, List.length_eq_zero_iff] at this
      subst this
      rfl
  | cons d ds ih =>
    have hstep : winFirst (d :: ds) h = (d h >>= fun r => match r with
      | .panic => OutT.panic
      | .ok x => OutT.ret (some x)
      | .err _ => winFirst ds h) := rfl
    rw [hstep, OutT.run_bind]
    rcases hd : OutT.run env hist (d h) with ⟨o, seg⟩
    have clash : ∀ {o' seg'}, OutT.run env hist (d h) = (o', seg') → o' = o ∧ seg' = seg := by
      intro o' seg' h'
      rw [hd] at h'
      simp only [Prod.mk.injEq] at h'
      exact ⟨h'.1.symm, h'.2.symm⟩
    -- what the two specifications say about the first driver
    have first : ∀ {i x segs}, FirstAccepted env hist (d :: ds) h i x segs →
        (o = .ret (.ok x) ∧ i = 0 ∧ segs = [seg]) ∨
        ∃ e i' segs', o = .ret (.err e) ∧ i = i' + 1 ∧ segs = seg :: segs' ∧ FirstAccepted env (hist ++ seg) ds h i' x segs' := by
      intro i x segs hf
      cases segs with
      | nil => have := hf.count; simp at this
      | cons s0 segs =>
        cases i with
        | zero =>
          have hc := hf.count
          simp only [List.length_cons, Nat.zero_add, Nat.add_eq_right, List.length_eq_zero_iff] at hc
          subst hc
          obtain ⟨d', s', h1, h2, h3⟩ := hf.accepted
          simp only [List.getElem?_cons_zero, Option.some.injEq] at h1 h2
          subst h1 h2
          obtain ⟨e1, e2⟩ := clash (by simpa using h3)
          exact .inl ⟨e1.symm, rfl, by rw [e2]⟩
        | succ i =>
          obtain ⟨⟨e, h1⟩, h2⟩ := hf.uncons
          obtain ⟨e1, e2⟩ := clash h1
          subst e2
          exact .inr ⟨e, i, segs, e1.symm, rfl, rfl, h2⟩
    have none_ : ∀ {segs}, NoneAccepted env hist (d :: ds) h segs →
        ∃ e segs', o = .ret (.err e) ∧ segs = seg :: segs' ∧ NoneAccepted env (hist ++ seg) ds h segs' := by
      intro segs hf
      cases segs with
      | nil => have := hf.count; simp at this
      | cons s0 segs =>
        obtain ⟨⟨e, h1⟩, h2⟩ := hf.uncons
        obtain ⟨e1, e2⟩ := clash h1
        subst e2
        exact ⟨e, segs, e1.symm, rfl, h2⟩
    cases o with
    | panic =>
      dsimp only
      refine ⟨fun x => ⟨fun h1 => by simp at h1, ?_⟩, fun h1 => by simp at h1, ?_⟩
      · rintro ⟨i, segs, hf, -⟩
        rcases first hf with ⟨h1, -⟩ | ⟨e, i', segs', h1, -⟩ <;> simp at h1
      · rintro ⟨segs, hf, -⟩
        obtain ⟨e, segs', h1, -⟩ := none_ hf
        simp at h1
    | running =>
      dsimp only
      refine ⟨fun x => ⟨fun h1 => by simp at h1, ?_⟩, fun h1 => by simp at h1, ?_⟩
      · rintro ⟨i, segs, hf, -⟩
        rcases first hf with ⟨h1, -⟩ | ⟨e, i', segs', h1, -⟩ <;> simp at h1
      · rintro ⟨segs, hf, -⟩
        obtain ⟨e, segs', h1, -⟩ := none_ hf
        simp at h1
    | ret res =>
      cases res with
      | panic =>
        dsimp only
        refine ⟨fun x => ⟨fun h1 => by simp at h1, ?_⟩, fun h1 => by simp at h1, ?_⟩
        · rintro ⟨i, segs, hf, -⟩
          rcases first hf with ⟨h1, -⟩ | ⟨e, i', segs', h1, -⟩ <;> simp at h1
        · rintro ⟨segs, hf, -⟩
          obtain ⟨e, segs', h1, -⟩ := none_ hf
          simp at h1
      | ok y =>
        dsimp only
        rw [OutT.run_ret, List.append_nil]
        refine ⟨fun x => ⟨fun h1 => ?_, ?_⟩, fun h1 => by simp at h1, ?_⟩
        · simp only [Prod.mk.injEq, Out.ret.injEq, Option.some.injEq] at h1
          obtain ⟨rfl, rfl⟩ := h1
          refine ⟨0, [seg], ⟨rfl, by simp, d, seg, rfl, rfl, by simpa using hd⟩, by simp⟩
        · rintro ⟨i, segs, hf, rfl⟩
          rcases first hf with ⟨h1, rfl, rfl⟩ | ⟨e, i', segs', h1, -⟩
          · simp only [Out.ret.injEq, Res.ok.injEq] at h1
            subst h1
            simp
          · simp at h1
        · rintro ⟨segs, hf, -⟩
          obtain ⟨e, segs', h1, -⟩ := none_ hf
          simp at h1
      | err e =>
        dsimp only
        rcases hw : OutT.run env (hist ++ seg) (winFirst ds h) with ⟨o2, t2⟩
        obtain ⟨ih1, ih2⟩ := ih (hist ++ seg) t2
        rw [hw] at ih1 ih2
        refine ⟨fun x => ⟨fun h1 => ?_, ?_⟩, fun h1 => ?_, ?_⟩
        · simp only [Prod.mk.injEq] at h1
          obtain ⟨rfl, rfl⟩ := h1
          obtain ⟨i, segs, hf, rfl⟩ := (ih1 x).mp rfl
          exact ⟨i + 1, seg :: segs, hf.cons hd, by simp⟩
        · rintro ⟨i, segs, hf, rfl⟩
          rcases first hf with ⟨h1, -⟩ | ⟨e', i', segs', -, rfl, rfl, h2⟩
          · simp at h1
          · have := ((ih (hist ++ seg) segs'.flatten).1 x).mpr ⟨i', segs', h2, rfl⟩
            rw [hw] at this
            simp only [Prod.mk.injEq] at this
            simp [this.1, this.2]
        · simp only [Prod.mk.injEq] at h1
          obtain ⟨rfl, rfl⟩ := h1
          obtain ⟨segs, hf, rfl⟩ := ih2.mp rfl
          exact ⟨seg :: segs, hf.cons hd, by simp⟩
        · rintro ⟨segs, hf, rfl⟩
          obtain ⟨e', segs', -, rfl, h2⟩ := none_ hf
          have := (ih (hist ++ seg) segs'.flatten).2.mpr ⟨segs', h2, rfl⟩
          rw [hw] at this
          simp only [Prod.mk.injEq] at this
          simp [this.1, this.2]

/-! ### Layout -/

/-- The complete entries in `d`, at most `n`. -/
def itemsIn (n : Nat) (d : Bytes) : List Bytes := (List.range (min n (d.length / 144))).map (fun i => slice d (144 * i) 144)

theorem itemsIn_cons (n : Nat) (d : Bytes) (hd : 144 ≤ d.length) :
    itemsIn (n + 1) d = d.take 144 :: itemsIn n (d.drop 144) := by
  unfold itemsIn
  have hlen : (d.drop 144).length = d.length - 144 := List.length_drop
  have hdiv : d.length / 144 = (d.length - 144) / 144 + 1 := by
    rw [Nat.div_eq (x := d.length), if_pos ⟨by decide, hd⟩]
  rw [hlen, hdiv, Nat.succ_min_succ, List.range_succ_eq_map, List.map_cons, List.map_map]
  congr 1
  refine List.map_congr_left (fun i _ => ?_)
  unfold slice
  simp only [Function.comp]
  rw [List.drop_drop]
  congr 2
  omega

theorem layoutEntries_eq (gpt : Bool) (disk : BitVec 32) (n : Nat) (d : Bytes) :
    layoutEntries gpt disk n d =
      if ∀ e ∈ itemsIn n d, leVal (slice e 0 4) = (if gpt then 1 else 0) then .ret ((itemsIn n d).map (itemPart disk))
      else .panic := by
  induction n generalizing d with
  | zero => simp [layoutEntries, itemsIn]
  | succ n ih =>
    unfold layoutEntries
    by_cases hd : d.length < 144
    · rw [if_pos hd]
      have : itemsIn (n + 1) d = [] := by
        unfold itemsIn
        rw [Nat.div_eq_of_lt hd]; simp
      rw [this]; simp
    · rw [if_neg hd, itemsIn_cons n d (by omega), ih]
      obtain ⟨e, he⟩ : ∃ e, e = d.take 144 := ⟨_, rfl⟩
      rw [← he]
      have hentry : layoutEntry gpt disk e =
          if leVal (slice e 0 4) = (if gpt then 1 else 0) then .ret (itemPart disk e) else .panic := by
        unfold layoutEntry itemPart
        cases gpt
        · simp only [Bool.false_eq_true, if_false]
          by_cases h0 : leVal (slice e 0 4) = 0
          · rw [if_pos h0, if_pos h0]
            simp only [h0, if_true]
            rw [if_neg (by decide)]
            congr 2
            simp only [Option.some.injEq, Prod.mk.injEq]
            refine ⟨rfl, ?_⟩
            exact (Bool.eq_iff_iff.mpr (by simp))
          · rw [if_neg h0, if_neg h0]
        · simp only [if_true]
          by_cases h1 : leVal (slice e 0 4) = 1
          · rw [if_pos h1, if_pos h1]
            simp only [h1, if_true]
            rw [if_neg (by decide), guidText_upper, guidText_upper]
          · rw [if_neg h1, if_neg h1]
      rw [hentry]
      by_cases hs : leVal (slice e 0 4) = (if gpt then 1 else 0)
      · rw [if_pos hs]
        by_cases hall : ∀ e' ∈ itemsIn n (d.drop 144), leVal (slice e' 0 4) = (if gpt then 1 else 0)
        · rw [if_pos hall, if_pos (by simpa using ⟨hs, hall⟩)]
          rfl
        · rw [if_neg hall, if_neg (by intro hh; exact hall (fun e' he' => hh e' (List.mem_cons_of_mem _ he')))]
          rfl
      · rw [if_neg hs]
        have hno : ¬ ∀ e' ∈ e :: itemsIn n (d.drop 144), leVal (slice e' 0 4) = (if gpt then 1 else 0) :=
          fun hh => hs (hh e (List.mem_cons_self ..))
        exact (if_neg hno).symm

theorem layoutItems_eq (data : Bytes) (_h : 48 ≤ data.length) :
    layoutItems data = itemsIn (leVal (slice data 4 4)) (data.drop 48) := by
  unfold layoutItems itemsIn
  rw [List.length_drop]
  refine List.map_congr_left (fun i _ => ?_)
  unfold slice
  rw [List.drop_drop]

/-- What the drive layout says: it must have 48 bytes and list only entries of its own style, otherwise the call panics. -/
theorem winLayout_spec (disk : BitVec 32) (data : Bytes) (b : WinBasic) :
    (winLayout disk data b = .panic ↔
      data.length < 48 ∨ (leVal (slice data 0 4) ≤ 1 ∧ MixedStyles data)) ∧
    (48 ≤ data.length → leVal (slice data 0 4) > 1 → winLayout disk data b = .ret b) ∧
    (48 ≤ data.length → leVal (slice data 0 4) = 1 → ¬ MixedStyles data → winLayout disk data b =
      .ret { b with style := 2, gptDiskId := uuidLower (slice data 8 16),
                    partitions := (layoutItems data).map (itemPart disk) }) ∧
    (48 ≤ data.length → leVal (slice data 0 4) = 0 → ¬ MixedStyles data → winLayout disk data b =
      .ret { b with style := 1, mbrSignature := BitVec.ofNat 32 (leVal (slice data 8 4)),
                    partitions := (layoutItems data).map (itemPart disk) }) := by
  have hmix : ∀ s, leVal (slice data 0 4) = s → 48 ≤ data.length →
      ((∀ e ∈ itemsIn (leVal (slice data 4 4)) (data.drop 48), leVal (slice e 0 4) = s) ↔ ¬ MixedStyles data) := by
    intro s hs hl
    rw [← layoutItems_eq data hl]
    unfold MixedStyles
    rw [hs]
    constructor
    · rintro h ⟨e, he, hne⟩; exact hne (h e he)
    · intro h e he
      exact Decidable.byContradiction (fun hne => h ⟨e, he, hne⟩)
  by_cases hl : data.length < 48
  · have : winLayout disk data b = .panic := by unfold winLayout; rw [if_pos hl]
    refine ⟨by rw [this]; simp [hl], fun h => absurd hl (by omega), fun h => absurd hl (by omega), fun h => absurd hl (by omega)⟩
  · have hl' : 48 ≤ data.length := by omega
    by_cases h1 : leVal (slice data 0 4) = 1
    · have hm := hmix 1 h1 hl'
      have hval : winLayout disk data b = if ¬ MixedStyles data then
          P.ret { b with style := 2, gptDiskId := uuidLower (slice data 8 16),
                          partitions := (layoutItems data).map (itemPart disk) } else .panic := by
        unfold winLayout
        rw [if_neg hl]
        dsimp only
        rw [if_pos h1, layoutEntries_eq]
        simp only [if_true]
        by_cases hx : MixedStyles data
        · rw [if_neg (fun hh => (hm.mp hh) hx), if_neg (by simpa using hx)]
          rfl
        · rw [if_pos (hm.mpr hx), if_pos hx, guidText_lower, layoutItems_eq data hl']
          rfl
      rw [hval]
      refine ⟨?_, fun _ h => absurd h (by omega), fun _ _ hx => by rw [if_pos hx], fun _ h => absurd h (by omega)⟩
      by_cases hx : MixedStyles data
      · simp [hx, h1]
      · rw [if_pos hx]; simp [hx, hl]
    · by_cases h0 : leVal (slice data 0 4) = 0
      · have hm := hmix 0 h0 hl'
        have hval : winLayout disk data b = if ¬ MixedStyles data then
            P.ret { b with style := 1, mbrSignature := BitVec.ofNat 32 (leVal (slice data 8 4)),
                            partitions := (layoutItems data).map (itemPart disk) } else .panic := by
          unfold winLayout
          rw [if_neg hl]
          dsimp only
          rw [if_neg h1, if_pos h0, layoutEntries_eq]
          simp only [Bool.false_eq_true, if_false]
          by_cases hx : MixedStyles data
          · rw [if_neg (fun hh => (hm.mp hh) hx), if_neg (by simpa using hx)]
            rfl
          · rw [if_pos (hm.mpr hx), if_pos hx, layoutItems_eq data hl']
            rfl
        rw [hval]
        refine ⟨?_, fun _ h => absurd h (by omega), fun _ h => absurd h (by omega), fun _ _ hx => by rw [if_pos hx]⟩
        by_cases hx : MixedStyles data
        · simp [hx, h0]
        · rw [if_pos hx]; simp [hx, hl]
      · have hval : winLayout disk data b = .ret b := by
          unfold winLayout
          rw [if_neg hl]
          dsimp only
          rw [if_neg h1, if_neg h0]
        rw [hval]
        refine ⟨?_, fun _ _ => rfl, fun _ h => absurd h h1, fun _ h => absurd h h0⟩
        constructor
        · intro h; simp at h
        · rintro (h | ⟨h, -⟩)
          · exact absurd h hl
          · omega

/-- C103: what the factory learns about a drive before any driver is tried. Windows is asked for the device number, the
geometry and the layout, each independently: number and size are known exactly if their inquiry succeeded. If the layout
cannot be read the drive has no partition style and no partitions. If it can, it must have 48 bytes and list only entries
of its own style, otherwise the call panics; its partitions are the complete entries among those announced, in order, with
start, length and identifiers as stored, on the disk of that number (4294967295 if unknown). -/
theorem win_basic_info (h : Nat) (env : Prog.Env WReq WRep) (hist : Prog.Trace WReq WRep) :
    ∃ n g t f o, Fetched h 0x70050 [] t f ∧ OutT.run env hist (winBasicInfo h) =
        (o, (.ioctl h 0x2d1080 [] 12 none, n) :: (.ioctl h 0x700a0 [] 32 none, g) :: t) ∧
      (match f with
        | .crashed => o = .panic
        | .failed _ => o = .ret { devNum := numberReported n, diskSize := sizeReported g }
        | .data buf k =>
          (o = .panic ↔ (buf.take k).length < 48 ∨ (leVal (slice (buf.take k) 0 4) ≤ 1 ∧ MixedStyles (buf.take k))) ∧
          (∀ b, o = .ret b → b.devNum = numberReported n ∧ b.diskSize = sizeReported g ∧
            b.style = (if leVal (slice (buf.take k) 0 4) = 1 then 2 else if leVal (slice (buf.take k) 0 4) = 0 then 1 else 0) ∧
            b.gptDiskId = (if leVal (slice (buf.take k) 0 4) = 1 then uuidLower (slice (buf.take k) 8 16) else []) ∧
            b.mbrSignature.toNat = (if leVal (slice (buf.take k) 0 4) = 0 then leVal (slice (buf.take k) 8 4) else 0) ∧
            b.partitions = (if leVal (slice (buf.take k) 0 4) ≤ 1 then
              (layoutItems (buf.take k)).map (itemPart ((numberReported n).getD 0xffffffff#32)) else [])) ∧
          o ≠ .running) := by
  unfold winBasicInfo
  rw [OutT.run_ask_bind]
  obtain ⟨n, hn⟩ : ∃ n, n = env hist (.ioctl h 0x2d1080 [] 12 none) := ⟨_, rfl⟩
  rw [← hn]
  dsimp only
  have e1 : (if n.err = none then some (BitVec.ofNat 32 (leVal (slice (storeInto (zeros 12) n.out) 4 4))) else none) =
      numberReported n := by rw [storeInto_delivered]; rfl
  rw [e1, OutT.run_ask_bind]
  obtain ⟨g, hg⟩ : ∃ g, g = env (hist ++ [(.ioctl h 0x2d1080 [] 12 none, n)]) (.ioctl h 0x700a0 [] 32 none) := ⟨_, rfl⟩
  rw [← hg]
  dsimp only
  have e2 : (if g.err = none then some (BitVec.ofNat 64 (leVal (slice (storeInto (zeros 32) g.out) 24 8))) else none) =
      sizeReported g := by rw [storeInto_delivered]; rfl
  rw [e2]
  obtain ⟨H, hH⟩ : ∃ H, H = hist ++ [(WReq.ioctl h 0x2d1080 [] 12 none, n)] ++ [(WReq.ioctl h 0x700a0 [] 32 none, g)] :=
    ⟨_, rfl⟩
  rw [← hH]
  obtain ⟨t, f, hf, hrun⟩ := winReadIoctl_run h 0x70050 [] env H
  rw [OutT.run_bind]
  cases f with
  | crashed =>
    simp only at hrun
    rw [hrun]
    exact ⟨n, g, t, _, _, hf, rfl, rfl⟩
  | failed e =>
    simp only at hrun
    rw [hrun]
    exact ⟨n, g, t, _, _, hf, by simp, rfl⟩
  | data buf k =>
    simp only at hrun
    rw [hrun]
    dsimp only
    obtain ⟨disk, hdisk⟩ : ∃ disk, disk = (numberReported n).getD 0xffffffff#32 := ⟨_, rfl⟩
    obtain ⟨b0, hb0⟩ : ∃ b0 : WinBasic, b0 = { devNum := numberReported n, diskSize := sizeReported g } := ⟨_, rfl⟩
    obtain ⟨data, hdata⟩ : ∃ data, data = buf.take k := ⟨_, rfl⟩
    rw [← hdisk, ← hb0, ← hdata]
    obtain ⟨s1, s2, s3, s4⟩ := winLayout_spec disk data b0
    have hb : b0.devNum = numberReported n ∧ b0.diskSize = sizeReported g ∧ b0.style = 0 ∧ b0.gptDiskId = [] ∧
        b0.mbrSignature = 0 ∧ b0.partitions = [] := by rw [hb0]; exact ⟨rfl, rfl, rfl, rfl, rfl, rfl⟩
    obtain ⟨b1, b2, b3, b4, b5, b6⟩ := hb
    cases hl : winLayout disk data b0 with
    | panic =>
      refine ⟨n, g, t, .data buf k, .panic, hf, by simp, ?_⟩
      dsimp only
      rw [← hdata]
      exact ⟨⟨fun _ => s1.mp hl, fun _ => rfl⟩, fun b hb => by simp at hb, by simp⟩
    | ret b =>
      refine ⟨n, g, t, .data buf k, .ret b, hf, by simp, ?_⟩
      dsimp only
      rw [← hdata]
      have hno : ¬ (data.length < 48 ∨ (leVal (slice data 0 4) ≤ 1 ∧ MixedStyles data)) := by
        intro hh; rw [s1.mpr hh] at hl; simp at hl
      refine ⟨⟨fun hh => by simp at hh, fun hh => absurd hh hno⟩, ?_, by simp⟩
      intro b' hb'
      simp only [Out.ret.injEq] at hb'
      subst hb'
      have h48 : 48 ≤ data.length := by
        have : ¬ data.length < 48 := fun hh => hno (.inl hh)
        omega
      rw [← hdisk]
      by_cases c1 : leVal (slice data 0 4) = 1
      · have hm : ¬ MixedStyles data := fun hh => hno (.inr ⟨by omega, hh⟩)
        rw [s3 h48 c1 hm] at hl
        simp only [P.ret.injEq] at hl
        rw [← hl, c1]
        exact ⟨b1, b2, rfl, rfl, by rw [b5]; rfl, rfl⟩
      · by_cases c0 : leVal (slice data 0 4) = 0
        · have hm : ¬ MixedStyles data := fun hh => hno (.inr ⟨by omega, hh⟩)
          rw [s4 h48 c0 hm] at hl
          simp only [P.ret.injEq] at hl
          rw [← hl, c0]
          refine ⟨b1, b2, rfl, b4, ?_, rfl⟩
          show (BitVec.ofNat 32 (leVal (slice data 8 4))).toNat = leVal (slice data 8 4)
          rw [BitVec.toNat_ofNat, Nat.mod_eq_of_lt]
          have := leVal_lt (slice data 8 4)
          rwa [slice_length _ _ _ (by omega)] at this
        · rw [s2 h48 (by omega)] at hl
          simp only [P.ret.injEq] at hl
          rw [← hl, if_neg c1, if_neg c0, if_neg c1, if_neg c0, if_neg (by omega)]
          exact ⟨b1, b2, b3, b4, by rw [b5]; rfl, b6⟩

/-! ### The storage query -/

theorem trimOf_trimmed (set s : Bytes) : TrimmedBy set s (trimOf set s) := by
  obtain ⟨p, hp⟩ : ∃ p : Byte → Bool, p = fun b => set.contains b := ⟨_, rfl⟩
  have hpb : ∀ b, p b = true ↔ b ∈ set := by intro b; rw [hp]; exact List.contains_iff_mem
  unfold trimOf
  rw [← hp]
  obtain ⟨r, hr⟩ : ∃ r, r = s.dropWhile p := ⟨_, rfl⟩
  obtain ⟨o, ho⟩ : ∃ o, o = (r.reverse.dropWhile p).reverse := ⟨_, rfl⟩
  rw [← hr, ← ho]
  have h1 : s = s.takeWhile p ++ r := by rw [hr, List.takeWhile_append_dropWhile]
  have h2 : r = o ++ (r.reverse.takeWhile p).reverse := by
    rw [ho, ← List.reverse_append, List.takeWhile_append_dropWhile, List.reverse_reverse]
  refine ⟨s.takeWhile p, (r.reverse.takeWhile p).reverse, ?_, ?_, ?_, ?_, ?_⟩
  · rw [List.append_assoc, ← h2]; exact h1
  · intro x hx; exact (hpb x).1 (mem_takeWhile' hx)
  · intro x hx; exact (hpb x).1 (mem_takeWhile' (List.mem_reverse.1 hx))
  · intro x hx
    have hh : r.head? = some x := by
      rw [h2, List.head?_append, hx]; rfl
    rw [hr] at hh
    rw [← hpb, head_dropWhile hh]; simp
  · intro x hx
    rw [ho, List.getLast?_reverse] at hx
    rw [← hpb, head_dropWhile hx]; simp

theorem cstring_read (data : Bytes) (off : Nat) (h : off ≤ data.length) :
    ∃ t, CString data off t ∧ readNullTerminatedAscii data off = .ret t := by
  obtain ⟨n1, n2, -⟩ := nul_text_none data off
  by_cases h0 : off = 0
  · exact ⟨[], .inl ⟨h0, rfl⟩, n1 (by omega)⟩
  · by_cases hz : (0#8 : Byte) ∈ data.drop off
    · obtain ⟨t, b, hb, hnot⟩ : ∃ t b, data.drop off = t ++ 0#8 :: b ∧ (0#8 : Byte) ∉ t := by
        obtain ⟨t, b, hb, hnot⟩ := List.eq_append_cons_of_mem hz
        exact ⟨t, b, hb, hnot⟩
      have hsplit : data = data.take off ++ t ++ 0#8 :: b := by
        rw [List.append_assoc, ← hb, List.take_append_drop]
      have hlen : (data.take off).length = off := by rw [List.length_take]; omega
      refine ⟨t, .inr (.inl ⟨by omega, data.take off, b, hsplit, hlen, hnot⟩), ?_⟩
      have := nul_text_found (data.take off) t b (by intro hh; rw [hh] at hlen; simp at hlen; omega) hnot
      rw [← hsplit, hlen] at this
      exact this
    · exact ⟨[], .inr (.inr ⟨by omega, h, hz, rfl⟩), n2 (by omega) (by omega) (by simpa using hz)⟩

theorem descText_spec (data m : Bytes) (off : Nat) :
    (leVal (slice m off 4) ≤ data.length → ∃ t o, CString data (leVal (slice m off 4)) t ∧ TrimmedBy [0x20] t o ∧
      descText data m off = .ret o) ∧
    (leVal (slice m off 4) > data.length → descText data m off = .panic) := by
  unfold descText
  refine ⟨fun h => ?_, fun h => ?_⟩
  · obtain ⟨t, ht, hr⟩ := cstring_read data _ h
    rw [hr]
    exact ⟨t, trimOf [0x20#8] t, ht, trimOf_trimmed _ _, rfl⟩
  · rw [(nul_text_none data _).2.2.mpr (by omega)]
    rfl

theorem storageDesc_spec (buf : Bytes) (k : Nat) (beyond : Nat → Byte) :
    (storageDesc buf k beyond = .panic ↔ buf.take k = [] ∨ BadOffset (fixedPart buf beyond) (buf.take k)) ∧
    (∀ d, storageDesc buf k beyond = .ret d → Describes (fixedPart buf beyond) (buf.take k) d) := by
  obtain ⟨m, hm⟩ : ∃ m, m = fixedPart buf beyond := ⟨_, rfl⟩
  obtain ⟨data, hdata⟩ : ∃ data, data = buf.take k := ⟨_, rfl⟩
  have hdef : storageDesc buf k beyond =
      if data = [] then P.panic
      else (do
        let v ← descText data m 12
        let p ← descText data m 16
        let s ← descText data m 24
        let r ← descText data m 20
        P.ret { deviceType := m.getD 8 0#8, typeModifier := m.getD 9 0#8, removable := m.getD 10 0#8 != 0#8, vendorId := v,
                productId := p, revision := r, serial := s, busType := m.getD 28 0#8 }) := by
    rw [hdata, hm]; rfl
  rw [hdef, ← hm, ← hdata]
  by_cases h0 : data = []
  · rw [if_pos h0]
    exact ⟨by simp [h0], fun d hd => by simp at hd⟩
  · rw [if_neg h0]
    unfold BadOffset
    have s12 := descText_spec data m 12
    have s16 := descText_spec data m 16
    have s24 := descText_spec data m 24
    have s20 := descText_spec data m 20
    by_cases b12 : leVal (slice m 12 4) > data.length
    · rw [s12.2 b12]
      exact ⟨⟨fun _ => .inr (.inl b12), fun _ => rfl⟩, fun d hd => by cases hd⟩
    obtain ⟨t12, o12, c12, r12, e12⟩ := s12.1 (by omega)
    rw [e12]
    by_cases b16 : leVal (slice m 16 4) > data.length
    · rw [s16.2 b16]
      exact ⟨⟨fun _ => .inr (.inr (.inl b16)), fun _ => rfl⟩, fun d hd => by cases hd⟩
    obtain ⟨t16, o16, c16, r16, e16⟩ := s16.1 (by omega)
    rw [e16]
    by_cases b24 : leVal (slice m 24 4) > data.length
    · rw [s24.2 b24]
      exact ⟨⟨fun _ => .inr (.inr (.inr (.inr b24))), fun _ => rfl⟩, fun d hd => by cases hd⟩
    obtain ⟨t24, o24, c24, r24, e24⟩ := s24.1 (by omega)
    rw [e24]
    by_cases b20 : leVal (slice m 20 4) > data.length
    · rw [s20.2 b20]
      exact ⟨⟨fun _ => .inr (.inr (.inr (.inl b20))), fun _ => rfl⟩, fun d hd => by cases hd⟩
    obtain ⟨t20, o20, c20, r20, e20⟩ := s20.1 (by omega)
    rw [e20]
    refine ⟨⟨fun hh => (by cases hh), ?_⟩, fun d hd => ?_⟩
    · rintro (hh | hh | hh | hh | hh)
      · exact absurd hh h0
      · exact absurd hh b12
      · exact absurd hh b16
      · exact absurd hh b20
      · exact absurd hh b24
    · have hd' := P.ret.inj hd
      rw [← hd']
      exact ⟨rfl, rfl, by simp, rfl, ⟨t12, c12, r12⟩, ⟨t16, c16, r16⟩, ⟨t20, c20, r20⟩, ⟨t24, c24, r24⟩⟩

/-- C104: the storage query asks for the device property and decodes the descriptor Windows returns: texts at the stored
offsets up to their NUL, without spaces at the ends, the removable flag, type and bus. It panics exactly if Windows returns
no bytes (or asks for a buffer of size 0), or if an offset lies behind the bytes returned. -/
theorem win_storage_query (h : Nat) (beyond : Nat → Byte) (env : Prog.Env WReq WRep) (hist : Prog.Trace WReq WRep) :
    ∃ t f o, Fetched h 0x2d1400 (zeros 12) t f ∧ OutT.run env hist (winStorageQuery h beyond) = (o, t) ∧
      (match f with
        | .crashed => o = .panic
        | .failed e => o = .ret (.err e)
        | .data buf k =>
          (if buf.take k = [] ∨ BadOffset (fixedPart buf beyond) (buf.take k) then o = .panic
           else ∃ d, o = .ret (.ok d) ∧ Describes (fixedPart buf beyond) (buf.take k) d)) := by
  obtain ⟨t, f, hf, hrun⟩ := winReadIoctl_run h 0x2d1400 (zeros 12) env hist
  unfold winStorageQuery
  rw [OutT.run_bind]
  cases f with
  | crashed =>
    simp only at hrun
    rw [hrun]
    exact ⟨t, _, _, hf, rfl, rfl⟩
  | failed e =>
    simp only at hrun
    rw [hrun]
    exact ⟨t, _, _, hf, by simp, rfl⟩
  | data buf k =>
    simp only at hrun
    rw [hrun]
    dsimp only
    obtain ⟨s1, s2⟩ := storageDesc_spec buf k beyond
    cases hd : storageDesc buf k beyond with
    | panic =>
      refine ⟨t, .data buf k, .panic, hf, ?_, ?_⟩
      · rw [OutT.run_bind]; simp
      · dsimp only; rw [if_pos (s1.mp hd)]
    | ret d =>
      refine ⟨t, .data buf k, .ret (.ok d), hf, ?_, ?_⟩
      · rw [OutT.run_bind]; simp
      · dsimp only
        rw [if_neg (fun hh => by rw [s1.mpr hh] at hd; cases hd)]
        exact ⟨d, rfl, s2 d hd⟩

/-! ### Opening -/

/-- A drive as the factory reports it agrees with what was learned before the drivers were tried. -/
structure Spec.FromBasic (path : Bytes) (b : WinBasic) (o : WinOpened) : Prop where
  path : o.devicePath = path
  style : o.partitionStyle = b.style
  gptDiskId : o.gptDiskId = b.gptDiskId
  mbrSignature : o.mbrSignature = b.mbrSignature
  partitions : o.partitions = b.partitions
  number : o.devNum = match b.devNum with
    | some n => (n.toNat : Int)
    | none => 0
  capacity : o.totalCapacity = b.diskSize.getD 0

/-- C75, C105: opening a handle, for any list of drivers, when it returns: first the basic information, then the drivers in
order up to the first that accepts; the drive uses that one, with its name, kind, interfaces and identity, and the rest of
the exchanges are its own. Only if all refuse the storage query is made: the drive then has no driver, and model, serial,
vendor, revision, removable flag (1 or 0, -1 if unknown) and type (fixed, tape, CD-ROM, remote by device type 0, 1, 5, 9)
come from its answer, if there is one. An unknown device number is reported as 0. -/
theorem win_open_by_handle (w : WinRun) (ds : List WinOpener) (h : Nat) (path : Bytes) (env : Prog.Env WReq WRep)
    (hist t : Prog.Trace WReq WRep) (o : WinOpened) (hrun : OutT.run env hist (winOpenByHandle w ds h path) = (.ret o, t)) :
    ∃ b tb segs rest, OutT.run env hist (winBasicInfo h) = (.ret b, tb) ∧ t = tb ++ segs.flatten ++ rest ∧
      FromBasic path b o ∧
      ((∃ i x e, FirstAccepted env (hist ++ tb) ds h i x segs ∧ o.drv = some x.1 ∧ o.handle.dh = some x.2 ∧
          o.drivingType = (if x.1.isAta then 1 else 2) ∧ o.driverName = x.1.name ∧ o.removable = -1 ∧
          o.vendorId = [] ∧ o.revision = [] ∧ o.driveType = 0 ∧
          OutT.run env (hist ++ tb ++ segs.flatten) (OutT.interp (winDrv x.1 w.addr w.base w.behind)
            (Handle.init { dh := some x.2 })) = (.ret (o.handle, e), rest)) ∨
       (NoneAccepted env (hist ++ tb) ds h segs ∧ o.drv = none ∧ o.handle.dh = none ∧ o.drivingType = 0 ∧ o.driverName = [] ∧
          ∃ q, OutT.run env (hist ++ tb ++ segs.flatten) (winStorageQuery h w.beyond) = (.ret q, rest) ∧
            match q with
            | .ok d => o.handle.info.model = d.productId ∧ o.handle.info.serial = d.serial ∧ o.vendorId = d.vendorId ∧
                o.revision = d.revision ∧ o.removable = (if d.removable then 1 else 0) ∧
                o.driveType = (if d.deviceType = 0 then 3 else if d.deviceType = 1 then 7 else if d.deviceType = 5 then 5
                  else if d.deviceType = 9 then 4 else 0)
            | _ => o.handle.info.model = [] ∧ o.handle.info.serial = [] ∧ o.vendorId = [] ∧ o.revision = [] ∧
                o.removable = -1 ∧ o.driveType = 0)) := by
  unfold winOpenByHandle at hrun
  rw [OutT.run_bind] at hrun
  rcases hb : OutT.run env hist (winBasicInfo h) with ⟨ob, tb⟩
  rw [hb] at hrun
  cases ob with
  | panic => simp at hrun
  | running => simp at hrun
  | ret b =>
    dsimp only at hrun
    rw [OutT.run_bind] at hrun
    rcases hf : OutT.run env (hist ++ tb) (winFirst ds h) with ⟨of, tf⟩
    rw [hf] at hrun
    cases of with
    | panic => simp at hrun
    | running => simp at hrun
    | ret x =>
      dsimp only at hrun
      cases x with
      | some x =>
        obtain ⟨i, segs, hfa, rfl⟩ := ((win_first_driver ds h env (hist ++ tb) tf).1 x).mp hf
        obtain ⟨k, d⟩ := x
        dsimp only at hrun
        have g1 : ∀ H, OutT.run env H (OutT.interp (winDrv k w.addr w.base w.behind)
            (Handle.getDrivingType { (winBasicOpened path b).handle with dh := some d })) =
            (.ret (if k.isAta then 1 else 2), []) := fun H => rfl
        have g2 : ∀ H, OutT.run env H (OutT.interp (winDrv k w.addr w.base w.behind)
            (Handle.getDriverName { (winBasicOpened path b).handle with dh := some d })) = (.ret k.name, []) := fun H => rfl
        rw [OutT.run_bind_ret env _ (g1 _)] at hrun
        dsimp only at hrun
        rw [OutT.run_bind_ret env _ (g2 _)] at hrun
        dsimp only at hrun
        simp only [List.append_nil, List.nil_append] at hrun
        rw [OutT.run_bind] at hrun
        have hh0 : ({ (winBasicOpened path b).handle with dh := some d } : Handle) = { dh := some d } := rfl
        rw [hh0] at hrun
        rcases hi : OutT.run env (hist ++ tb ++ segs.flatten) (OutT.interp (winDrv k w.addr w.base w.behind)
            (Handle.init { dh := some d })) with ⟨oi, ti⟩
        rw [hi] at hrun
        cases oi with
        | panic => simp at hrun
        | running => simp at hrun
        | ret y =>
          obtain ⟨hd, e⟩ := y
          dsimp only at hrun
          simp only [OutT.run_ret, List.append_nil, Prod.mk.injEq, Out.ret.injEq] at hrun
          obtain ⟨ho, rfl⟩ := hrun
          have hdh : hd.dh = some d := OutT.returns_run (OutT.returns_interp (winDrv k w.addr w.base w.behind) _
            (init_returns_dh { dh := some d })) env _ (hd, e) (by rw [hi])
          refine ⟨b, tb, segs, ti, rfl, by rw [List.append_assoc], ?_, .inl ⟨i, (k, d), e, hfa, ?_⟩⟩
          · rw [← ho]; exact ⟨rfl, rfl, rfl, rfl, rfl, rfl, rfl⟩
          · rw [← ho]
            exact ⟨rfl, hdh, rfl, rfl, rfl, rfl, rfl, rfl, hi⟩
      | none =>
        obtain ⟨segs, hna, rfl⟩ := (win_first_driver ds h env (hist ++ tb) tf).2.mp hf
        dsimp only at hrun
        rw [OutT.run_bind] at hrun
        rcases hq : OutT.run env (hist ++ tb ++ segs.flatten) (winStorageQuery h w.beyond) with ⟨oq, tq⟩
        rw [hq] at hrun
        cases oq with
        | panic => simp at hrun
        | running => simp at hrun
        | ret q =>
          dsimp only at hrun
          cases q with
          | panic => simp at hrun
          | err e =>
            simp only [OutT.run_ret, List.append_nil, Prod.mk.injEq, Out.ret.injEq] at hrun
            obtain ⟨ho, rfl⟩ := hrun
            refine ⟨b, tb, segs, tq, rfl, by rw [List.append_assoc], ?_, .inr ⟨hna, ?_⟩⟩
            · rw [← ho]; exact ⟨rfl, rfl, rfl, rfl, rfl, rfl, rfl⟩
            · rw [← ho]
              exact ⟨rfl, rfl, rfl, rfl, .err e, hq, rfl, rfl, rfl, rfl, rfl, rfl⟩
          | ok d =>
            simp only [OutT.run_ret, List.append_nil, Prod.mk.injEq, Out.ret.injEq] at hrun
            obtain ⟨ho, rfl⟩ := hrun
            refine ⟨b, tb, segs, tq, rfl, by rw [List.append_assoc], ?_, .inr ⟨hna, ?_⟩⟩
            · rw [← ho]; exact ⟨rfl, rfl, rfl, rfl, rfl, rfl, rfl⟩
            · rw [← ho]
              exact ⟨rfl, rfl, rfl, rfl, .ok d, hq, rfl, rfl, rfl, rfl, rfl, rfl⟩

end Dparm
