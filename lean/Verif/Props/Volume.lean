import Verif.Spec.Volume
import Verif.Props.DriveInfo
import Mathlib.Data.List.Forall2
/-!
# C69, C70 and more: volumes on Linux
-/
namespace Dparm

theorem splitAt_cut (c : Byte) (s : Bytes) :
    splitAt c s = (cut s c).1 :: (if (cut s c).2.2 then splitAt c (cut s c).2.1 else []) ∧
    ((cut s c).2.2 = false → (cut s c).2.1 = []) := by
  induction s with
  | nil => exact ⟨rfl, fun _ => rfl⟩
  | cons x xs ih =>
    by_cases h : x = c
    · have e1 : splitAt c (x :: xs) = [] :: splitAt c xs := by rw [splitAt, if_pos h]
      have e2 : cut (x :: xs) c = ([], xs, true) := by rw [cut, if_pos h]
      rw [e1, e2]
      exact ⟨rfl, fun hh => by simp at hh⟩
    · have e1 : splitAt c (x :: xs) = (match splitAt c xs with
        | [] => [[x]]
        | w :: ws => (x :: w) :: ws) := by
        rw [splitAt, if_neg h]
        rfl
      have e2 : cut (x :: xs) c = (x :: (cut xs c).1, (cut xs c).2.1, (cut xs c).2.2) := by rw [cut, if_neg h]
      rw [e1, e2, ih.1]
      exact ⟨rfl, ih.2⟩

theorem mountFields_eq (line : Bytes) : mountFields line = (deviceOf line, mountOf line, fsOf line) := by
  unfold mountFields deviceOf mountOf fsOf
  obtain ⟨c1, hc1⟩ : ∃ c, c = cut line 0x20#8 := ⟨_, rfl⟩
  obtain ⟨c2, hc2⟩ : ∃ c, c = cut c1.2.1 0x20#8 := ⟨_, rfl⟩
  obtain ⟨c3, hc3⟩ : ∃ c, c = cut c2.2.1 0x20#8 := ⟨_, rfl⟩
  have s1 := splitAt_cut 0x20#8 line
  have s2 := splitAt_cut 0x20#8 c1.2.1
  have s3 := splitAt_cut 0x20#8 c2.2.1
  rw [← hc1] at s1
  rw [← hc2] at s2
  rw [← hc3] at s3
  simp only
  rw [← hc1, ← hc2, ← hc3, s1.1]
  cases h1 : c1.2.2 with
  | false =>
    have e1 := s1.2 h1
    rw [e1] at hc2
    have e2 : c2 = ([], [], false) := hc2
    rw [e2] at hc3
    have e3 : c3 = ([], [], false) := hc3
    rw [e2, e3]
    rfl
  | true =>
    rw [if_pos rfl, s2.1]
    cases h2 : c2.2.2 with
    | false =>
      have e2 := s2.2 h2
      rw [e2] at hc3
      have e3 : c3 = ([], [], false) := hc3
      rw [e3]
      rfl
    | true =>
      rw [if_pos rfl, s3.1]
      rfl

theorem isDigit_iff (c : Byte) : isDigit c = true ↔ Digit c := by
  unfold isDigit Digit
  simp only [decide_eq_true_eq, BitVec.le_def, BitVec.toNat_ofNat, Nat.reducePow, Nat.reduceMod]

theorem digit_ne_p {c : Byte} (h : Digit c) : c ≠ 0x70#8 := by
  rintro rfl
  unfold Digit at h
  simp at h

/-- Which device names are taken for partitions, and how they are split. -/
theorem partitionMatch_iff (dev parent digits : Bytes) :
    partitionMatch dev = some (parent, digits) ↔ PartitionName dev parent digits := by
  constructor
  · intro h
    unfold partitionMatch at h
    rcases split_last dev 0x70#8 with hn | ⟨a, b, rfl, hb⟩
    · rw [lastIndex_none _ _ hn] at h
      simp at h
    · rw [lastIndex_found a b _ hb] at h
      dsimp only at h
      have e1 : ((a.length : Int)).toNat = a.length := by omega
      rw [if_neg (by omega), e1] at h
      have e2 : (a ++ 0x70#8 :: b).take a.length = a := List.take_left
      have e3 : (a ++ 0x70#8 :: b).drop (a.length + 1) = b := by
        rw [← List.drop_drop, List.drop_left]; rfl
      rw [e2, e3] at h
      rw [Option.ite_none_right_eq_some] at h
      obtain ⟨hc, h⟩ := h
      simp only [Option.some.injEq, Prod.mk.injEq] at h
      obtain ⟨rfl, rfl⟩ := h
      simp only [Bool.and_eq_true, decide_eq_true_eq, List.all_eq_true, Bool.not_eq_true', ne_eq,
        List.contains_eq_mem, decide_eq_false_iff_not] at hc
      obtain ⟨⟨⟨⟨⟨h1, h2⟩, h3⟩, h4⟩, h5⟩, h6⟩ := hc
      refine ⟨rfl, h1, fun c hc => (isDigit_iff c).mp (h2 c hc), ?_⟩
      unfold hasPrefix at h3
      rw [List.isPrefixOf_iff_prefix] at h3
      obtain ⟨t, ht⟩ := h3
      have hl5 : (ascii "/dev/").length = 5 := by decide
      have htl : t.length ≥ 2 := by
        have := congrArg List.length ht
        rw [List.length_append, hl5] at this
        omega
      have htn : t ≠ [] := by intro hh; rw [hh] at htl; simp at htl
      refine ⟨t.dropLast, t.getLast htn, ?_, ?_, ?_, ?_⟩
      · rw [List.append_assoc, List.dropLast_concat_getLast, ht]
      · intro hh
        have := congrArg List.length hh
        simp at this
        omega
      · intro hh
        apply h6
        rw [← ht]
        exact List.mem_append_right _ ((List.dropLast_subset _ hh))
      · have : a.getLast? = some (t.getLast htn) := by
          rw [← ht, List.getLast?_append, List.getLast?_eq_some_getLast htn]; rfl
        rw [this] at h5
        exact (isDigit_iff _).mp h5
  · rintro ⟨rfl, h1, h2, mid, d, rfl, h3, h4, h5⟩
    unfold partitionMatch
    have hb : (0x70#8 : Byte) ∉ digits := fun hh => digit_ne_p (h2 _ hh) rfl
    rw [lastIndex_found _ _ _ hb]
    obtain ⟨a, ha⟩ : ∃ a, a = ascii "/dev/" ++ mid ++ [d] := ⟨_, rfl⟩
    rw [← ha]
    simp only
    have e1 : ((a.length : Int)).toNat = a.length := by omega
    rw [if_neg (by omega), e1]
    have e2 : (a ++ 0x70#8 :: digits).take a.length = a := List.take_left
    have e3 : (a ++ 0x70#8 :: digits).drop (a.length + 1) = digits := by
      rw [← List.drop_drop, List.drop_left]; rfl
    rw [e2, e3, if_pos]
    have hl5 : (ascii "/dev/").length = 5 := by decide
    simp only [Bool.and_eq_true, decide_eq_true_eq, List.all_eq_true, Bool.not_eq_true', ne_eq,
      List.contains_eq_mem, decide_eq_false_iff_not]
    refine ⟨⟨⟨⟨⟨h1, fun c hc => (isDigit_iff c).mpr (h2 c hc)⟩, ?_⟩, ?_⟩, ?_⟩, ?_⟩
    · unfold hasPrefix
      rw [List.isPrefixOf_iff_prefix, ha, List.append_assoc]
      exact ⟨_, rfl⟩
    · rw [ha, List.length_append, List.length_append, hl5]
      have : mid.length ≠ 0 := fun hh => h3 (List.length_eq_zero_iff.mp hh)
      simp
      omega
    · have : a.getLast? = some d := by rw [ha]; simp
      rw [this]
      exact (isDigit_iff d).mpr h5
    · rw [ha]
      simp only [List.mem_append, List.mem_singleton, not_or]
      refine ⟨⟨by decide, h4⟩, ?_⟩
      rintro rfl
      unfold Digit at h5
      simp at h5

/-! ### Go maps as lists -/

theorem mapGet_none_iff {β : Type} (m : List (Bytes × β)) (k : Bytes) : mapGet m k = none ↔ k ∉ m.map (·.1) := by
  unfold mapGet
  rw [Option.map_eq_none_iff, List.find?_eq_none]
  simp only [beq_iff_eq, List.mem_map, not_exists, not_and]

theorem mapGet_some {β : Type} {m : List (Bytes × β)} {k : Bytes} {v : β} (h : mapGet m k = some v) : (k, v) ∈ m := by
  unfold mapGet at h
  rw [Option.map_eq_some_iff] at h
  obtain ⟨e, he, rfl⟩ := h
  have h1 := List.mem_of_find?_eq_some he
  have h2 := List.find?_some he
  simp only [beq_iff_eq] at h2
  obtain ⟨a, b⟩ := e
  simp only at h2
  subst h2
  exact h1

theorem mapPut_keys {β : Type} (m : List (Bytes × β)) (k : Bytes) (v : β) :
    (mapPut m k v).map (·.1) = if k ∈ m.map (·.1) then m.map (·.1) else m.map (·.1) ++ [k] := by
  unfold mapPut
  by_cases h : k ∈ m.map (·.1)
  · rw [if_pos h, if_pos]
    · rw [List.map_map]
      apply List.map_congr_left
      intro e he
      simp only [Function.comp]
      split
      · rename_i hh; simp at hh; exact hh.symm
      · rfl
    · simp only [List.any_eq_true, beq_iff_eq]
      simp only [List.mem_map] at h
      exact h
  · rw [if_neg h, if_neg]
    · simp
    · simp only [List.any_eq_true, beq_iff_eq, not_exists, not_and]
      intro e he hk
      exact h (by rw [← hk]; exact List.mem_map_of_mem he)

theorem mem_mapPut {β : Type} (m : List (Bytes × β)) (k : Bytes) (v : β) (e : Bytes × β) :
    e ∈ mapPut m k v ↔ e = (k, v) ∨ (e ∈ m ∧ e.1 ≠ k) := by
  unfold mapPut
  split
  · rename_i h
    simp only [List.any_eq_true, beq_iff_eq] at h
    simp only [List.mem_map]
    constructor
    · rintro ⟨x, hx, hh⟩
      split at hh
      · exact Or.inl hh.symm
      · rename_i hn
        subst hh
        exact Or.inr ⟨hx, by simpa using hn⟩
    · rintro (rfl | ⟨he, hn⟩)
      · obtain ⟨x, hx, hk⟩ := h
        exact ⟨x, hx, by rw [if_pos (by simpa using hk)]⟩
      · exact ⟨e, he, by rw [if_neg (by simpa using hn)]⟩
  · rename_i h
    simp only [List.any_eq_true, beq_iff_eq, not_exists, not_and] at h
    simp only [List.mem_append, List.mem_singleton]
    constructor
    · rintro (he | he)
      · exact Or.inr ⟨he, h e he⟩
      · exact Or.inl he
    · rintro (he | ⟨he, _⟩)
      · exact Or.inr he
      · exact Or.inl he

theorem mapPut_nodup {β : Type} (m : List (Bytes × β)) (k : Bytes) (v : β) (h : (m.map (·.1)).Nodup) :
    ((mapPut m k v).map (·.1)).Nodup := by
  rw [mapPut_keys]
  split
  · exact h
  · rename_i hn
    rw [List.nodup_append]
    refine ⟨h, by simp, ?_⟩
    intro a ha b hb
    simp only [List.mem_singleton] at hb
    subst hb
    rintro rfl
    exact hn ha

/-! ### Grouping -/

theorem volLine_returns (vols : VolMap) (line : Bytes) :
    OutT.Returns (fun vols' => ∃ p, vols' = mapPut vols (deviceOf line)
      { ((mapGet vols (deviceOf line)).getD {}).mount (deviceOf line) (mountOf line) (fsOf line) with partition := p })
      (volLine vols line) := by
  unfold volLine
  rw [mountFields_eq]
  simp only
  split
  · exact OutT.returns_ret ⟨_, rfl⟩
  · refine OutT.returns_bind (OutT.returns_any _) (fun b _ => ?_)
    split
    · exact OutT.returns_ret ⟨_, rfl⟩
    · refine OutT.returns_bind (OutT.returns_any _) (fun b _ => ?_)
      split
      · exact OutT.returns_ret ⟨_, rfl⟩
      · exact OutT.returns_ret ⟨_, rfl⟩

theorem filter_append_one {α : Type} (p : α → Bool) (l : List α) (x : α) :
    (l ++ [x]).filter p = l.filter p ++ (if p x then [x] else []) := by
  rw [List.filter_append, List.filter_cons]
  cases p x <;> rfl

theorem grouped_step {lines : List Bytes} {vols : VolMap} (G : Grouped lines vols) (line : Bytes)
    (p : Option PartInfo) :
    Grouped (lines ++ [line]) (mapPut vols (deviceOf line)
      { ((mapGet vols (deviceOf line)).getD {}).mount (deviceOf line) (mountOf line) (fsOf line) with partition := p }) := by
  obtain ⟨v, hv⟩ : ∃ v, v = ((mapGet vols (deviceOf line)).getD {}) := ⟨_, rfl⟩
  rw [← hv]
  -- what is known about the previous entry
  have hprev : (v = {} ∧ lines.filter (fun l => deviceOf l = deviceOf line) = []) ∨ (deviceOf line, v) ∈ vols := by
    cases hg : mapGet vols (deviceOf line) with
    | none =>
      left
      rw [hg] at hv
      refine ⟨hv, ?_⟩
      rw [List.filter_eq_nil_iff]
      intro l hl hh
      have := (G.devices (deviceOf line)).mpr ⟨l, hl, by simpa using hh⟩
      exact (mapGet_none_iff _ _).mp hg this
    | some w =>
      right
      rw [hg] at hv
      have : v = w := hv
      rw [this]
      exact mapGet_some hg
  have hf : ∀ e : Bytes, (lines ++ [line]).filter (fun l => deviceOf l = e) =
      lines.filter (fun l => deviceOf l = e) ++ (if deviceOf line = e then [line] else []) := by
    intro e
    rw [filter_append_one]
    by_cases h : deviceOf line = e <;> simp [h]
  have hpath : (v.mount (deviceOf line) (mountOf line) (fsOf line)).path = deviceOf line := by
    unfold VolInfo.mount
    by_cases h : v.path = []
    · simp [h]
    · simp only [h, if_false]
      rcases hprev with ⟨h1, _⟩ | h1
      · rw [h1] at h; exact absurd rfl h
      · exact G.path _ h1
  have hmounts : (v.mount (deviceOf line) (mountOf line) (fsOf line)).mounts =
      (lines.filter (fun l => deviceOf l = deviceOf line)).map mountOf ++ [mountOf line] := by
    have : (v.mount (deviceOf line) (mountOf line) (fsOf line)).mounts = v.mounts ++ [mountOf line] := by
      unfold VolInfo.mount
      by_cases h : v.path = [] <;> simp [h]
    rw [this]
    rcases hprev with ⟨h1, h2⟩ | h1
    · rw [h1, h2]; rfl
    · rw [G.mounts _ h1]
  constructor
  · exact mapPut_nodup _ _ _ G.once
  · intro d
    rw [mapPut_keys]
    constructor
    · intro hd
      split at hd
      · obtain ⟨l, hl, rfl⟩ := (G.devices d).mp hd
        exact ⟨l, by simp [hl], rfl⟩
      · simp only [List.mem_append, List.mem_singleton] at hd
        rcases hd with hd | rfl
        · obtain ⟨l, hl, rfl⟩ := (G.devices d).mp hd
          exact ⟨l, by simp [hl], rfl⟩
        · exact ⟨line, by simp, rfl⟩
    · rintro ⟨l, hl, rfl⟩
      simp only [List.mem_append, List.mem_singleton] at hl
      split
      · rename_i hin
        rcases hl with hl | rfl
        · exact (G.devices _).mpr ⟨l, hl, rfl⟩
        · exact hin
      · rw [List.mem_append]
        rcases hl with hl | rfl
        · exact Or.inl ((G.devices _).mpr ⟨l, hl, rfl⟩)
        · right; simp
  · intro e he
    rw [mem_mapPut] at he
    rcases he with rfl | ⟨he, _⟩
    · exact hpath
    · exact G.path e he
  · intro e he
    rw [mem_mapPut] at he
    rcases he with rfl | ⟨he, hn⟩
    · simp only
      rw [hf, if_pos rfl, List.map_append]
      exact hmounts
    · rw [hf, if_neg (Ne.symm hn), List.append_nil]
      exact G.mounts e he
  · intro e he hne
    rw [mem_mapPut] at he
    rcases he with rfl | ⟨he, hn⟩
    · simp only at hne ⊢
      rw [hf, if_pos rfl]
      rcases hprev with ⟨h1, h2⟩ | h1
      · rw [h2, h1]; rfl
      · have hv2 := G.first _ h1 hne
        have hvp := G.path _ h1
        simp only at hv2 hvp
        have : (v.mount (deviceOf line) (mountOf line) (fsOf line)).filesystem = v.filesystem := by
          unfold VolInfo.mount
          rw [if_neg (by rw [hvp]; exact hne)]
        rw [this, ← hv2]
        cases hfl : lines.filter (fun l => deviceOf l = deviceOf line) with
        | nil => rw [hfl] at hv2; simp at hv2
        | cons x xs => rfl
    · rw [hf, if_neg (Ne.symm hn), List.append_nil]
      exact G.first e he hne
  · intro e he hemp
    rw [mem_mapPut] at he
    rcases he with rfl | ⟨he, hn⟩
    · simp only at hemp ⊢
      rw [hf, if_pos rfl]
      have hvp : v.path = [] := by
        rcases hprev with ⟨h1, h2⟩ | h1
        · rw [h1]
        · have := G.path _ h1
          simp only at this
          rw [this]; exact hemp
      have : (v.mount (deviceOf line) (mountOf line) (fsOf line)).filesystem = fsOf line := by
        unfold VolInfo.mount
        rw [if_pos hvp]
      rw [this]
      simp
    · rw [hf, if_neg (Ne.symm hn), List.append_nil]
      exact G.last e he hemp

theorem volLoop_grouped (env : Prog.Env FReq FRep) (ls : List (Bytes × Option GoErr)) :
    ∀ (hist : Prog.Trace FReq FRep) (done : List Bytes) (vols vols' : VolMap), Grouped done vols →
    (OutT.run env hist (volLoop ls vols)).1 = .ret (.ok vols') →
    Grouped (done ++ ls.map (·.1)) vols' ∧ ∀ l ∈ ls, l.2 = none := by
  induction ls with
  | nil =>
    intro hist done vols vols' G h
    simp only [volLoop, OutT.run_ret, Out.ret.injEq, Res.ok.injEq] at h
    subst h
    simpa using G
  | cons l rest ih =>
    intro hist done vols vols' G h
    obtain ⟨line, e⟩ := l
    unfold volLoop at h
    obtain ⟨w, h1, h2, _⟩ := OutT.run_bind_cases h
    obtain ⟨p, hp⟩ := OutT.returns_run (volLine_returns vols line) env hist w h1
    cases e with
    | some e => simp at h2
    | none =>
      simp only at h2
      have := ih _ (done ++ [line]) w vols' (by rw [hp]; exact grouped_step G line p) h2
      refine ⟨by simpa using this.1, ?_⟩
      intro l hl
      simp only [List.mem_cons] at hl
      rcases hl with rfl | hl
      · rfl
      · exact this.2 l hl

/-- C69: for every mount table the volumes are its lines grouped by device; the call fails exactly if the table cannot be
opened or a line arrives together with an error. -/
theorem enum_volumes_grouping (m : Mounts) (env : Prog.Env FReq FRep) (hist : Prog.Trace FReq FRep) :
    (∀ vols, (OutT.run env hist (enumVolumes m)).1 = .ret (.ok vols) →
      m.openErr = none ∧ (∀ l ∈ m.lines, l.2 = none) ∧ Grouped (m.lines.map (·.1)) vols) ∧
    (∀ e, m.openErr = some e → OutT.run env hist (enumVolumes m) = (.ret (.err e), [])) := by
  refine ⟨?_, ?_⟩
  · intro vols h
    unfold enumVolumes at h
    cases ho : m.openErr with
    | some e => rw [ho] at h; simp at h
    | none =>
      rw [ho] at h
      have G0 : Grouped [] [] := ⟨by simp, by simp, by simp, by simp, by simp, by simp⟩
      have := volLoop_grouped env m.lines hist [] [] vols G0 h
      exact ⟨rfl, this.2, by simpa using this.1⟩
  · intro e ho
    unfold enumVolumes
    rw [ho]
    rfl

/-! ### Partitions -/

theorem decimal_go (ds : Bytes) : ∀ n, ds.foldl (fun n d => n * 10 + (d.toNat - 0x30)) n = n * 10 ^ ds.length + numberOf ds := by
  induction ds with
  | nil => intro n; simp [numberOf]
  | cons d ds ih =>
    intro n
    rw [List.foldl_cons, ih, numberOf, List.length_cons, Nat.pow_succ, Nat.add_mul, Nat.mul_assoc, Nat.mul_comm 10]
    omega

theorem decimal_eq (ds : Bytes) : decimal ds = numberOf ds := by
  unfold decimal; rw [decimal_go]; simp

theorem basicTable_run (path : Bytes) (t : PartTable) (b0 : BasicInfo) (h0 : b0.style = 0) (env : Prog.Env FReq FRep)
    (hist : Prog.Trace FReq FRep) :
    ∃ b tr, OutT.run env hist (basicTable path t b0) = (.ret b, tr) ∧ b.table = t ∧
      b.style = (match t with
        | .none => 0
        | .gpt .. => 2
        | .mbr _ => 1) ∧ ∀ x ∈ tr, x.1 = FReq.readAt path 512 := by
  unfold basicTable
  cases t with
  | none => exact ⟨_, _, rfl, rfl, h0, by simp⟩
  | gpt guid parts => exact ⟨_, _, rfl, rfl, rfl, by simp⟩
  | mbr parts =>
    dsimp only
    obtain ⟨r, hr⟩ : ∃ r, r = env hist (.readAt path 512) := ⟨_, rfl⟩
    obtain ⟨o, ho⟩ : ∃ o, o = mbrOf { data := r.data, n := r.n, err := r.err } := ⟨_, rfl⟩
    have hrun : OutT.run env hist (OutT.interp (fun n => do
        let r ← (OutT.ask (.readAt path n) : FM FRep)
        OutT.ret ({ data := r.data, n := r.n, err := r.err } : ReadAtRep)) mbrRead) = (.ret o, [(.readAt path 512, r)]) := by
      rw [mbrRead_eq, ho, hr]; rfl
    rw [OutT.run_bind_ret env hist hrun]
    cases o <;> exact ⟨_, _, rfl, rfl, rfl, by simp⟩

theorem parentInfo_run (parent : Bytes) (env : Prog.Env FReq FRep) (hist : Prog.Trace FReq FRep) :
    ∃ o tr, OutT.run env hist (parentInfo parent) = (.ret o, tr) ∧ Probe parent tr (o.map (·.table)) ∧
      ∀ b, o = some b → b.style = (match b.table with
        | .none => 0
        | .gpt .. => 2
        | .mbr _ => 1) := by
  unfold parentInfo
  rw [OutT.run_ask_bind]
  obtain ⟨r, hr⟩ : ∃ r, r = env hist (.openDev parent) := ⟨_, rfl⟩
  rw [← hr]
  cases he : r.err with
  | some e => exact ⟨none, _, rfl, Probe.noOpen r (by simp [he]), by simp⟩
  | none =>
    dsimp only
    unfold readBasicInfo
    rw [OutT.run_bind]
    rw [OutT.run_ask_bind]
    obtain ⟨d, hd⟩ : ∃ d, d = env (hist ++ [(FReq.openDev parent, r)]) (.diskfs parent) := ⟨_, rfl⟩
    rw [← hd]
    cases hde : d.err with
    | some e => exact ⟨none, _, rfl, Probe.noLibrary r d he (by simp [hde]), by simp⟩
    | none =>
      dsimp only
      rw [OutT.run_ask_bind, OutT.run_ask_bind, OutT.run_ask_bind]
      obtain ⟨h1, hh1⟩ : ∃ h, h = hist ++ [(FReq.openDev parent, r)] ++ [(FReq.diskfs parent, d)] := ⟨_, rfl⟩
      rw [← hh1]
      obtain ⟨s, hs⟩ : ∃ s, s = env h1 (.sectorSize r.fd) := ⟨_, rfl⟩
      rw [← hs]
      obtain ⟨h2, hh2⟩ : ∃ h, h = h1 ++ [(FReq.sectorSize r.fd, s)] := ⟨_, rfl⟩
      rw [← hh2]
      obtain ⟨z, hz⟩ : ∃ z, z = env h2 (.totalSize r.fd) := ⟨_, rfl⟩
      rw [← hz]
      obtain ⟨h3, hh3⟩ : ∃ h, h = h2 ++ [(FReq.totalSize r.fd, z)] := ⟨_, rfl⟩
      rw [← hh3]
      obtain ⟨g, hg⟩ : ∃ g, g = env h3 (.geometry r.fd) := ⟨_, rfl⟩
      rw [← hg]
      cases hge : ioctlErr g.ret g.errno with
      | some e =>
        have : ¬ SysOk g := fun h => by rw [(ioctlErr_none_iff g).mpr h] at hge; cases hge
        exact ⟨none, _, rfl, Probe.noGeometry r d s z g he hde this, by simp⟩
      | none =>
        have hok := (ioctlErr_none_iff g).mp hge
        dsimp only
        obtain ⟨b, tr, k1, k2, k3, k4⟩ := basicTable_run parent d.table
          { sectorSize := if ioctlErr s.ret s.errno = none then s.num else 0,
            totalBytes := if ioctlErr z.ret z.errno = none then z.num else 0 } rfl env
            (h3 ++ [(FReq.geometry r.fd, g)])
        rw [OutT.run_bind_ret _ _ k1]
        refine ⟨some b, _, rfl, ?_, ?_⟩
        · have := Probe.read (parent := parent) r d s z g tr he hde hok k4
          simpa [k2] using this
        · intro b' hb'
          cases hb'
          rw [k2]
          exact k3

theorem partitionOf_eq (l : Look) (b : BasicInfo) (ht : l.table = some b.table)
    (hs : b.style = (match b.table with
        | .none => 0
        | .gpt .. => 2
        | .mbr _ => 1)) :
    (l.Zero → partitionOf l.dev l.parent b (atoi l.digits - 1) = .panic) ∧
    (¬ l.Zero → partitionOf l.dev l.parent b (atoi l.digits - 1) = .ret l.found) := by
  unfold Look.Zero Look.found partitionOf atoi
  rw [ht, decimal_eq, hs]
  obtain ⟨n, hn⟩ : ∃ n, n = numberOf l.digits := ⟨_, rfl⟩
  rw [← hn]
  have hk : (min (n : Int) (2 ^ 63 - 1)) - 1 = if n = 0 then -1 else ((min n (2 ^ 63 - 1) - 1 : Nat) : Int) := by
    split <;> omega
  rw [hk]
  cases b.table with
  | none => simp
  | gpt guid parts =>
    by_cases h : n = 0
    · simp only [h, if_true]
      refine ⟨fun _ => ?_, fun hh => absurd ⟨trivial, _, rfl, by simp⟩ hh⟩
      rw [if_pos (by omega), if_pos (by omega)]
    · simp only [if_neg h]
      refine ⟨fun hh => absurd hh.1 h, fun _ => ?_⟩
      obtain ⟨k, hk⟩ : ∃ k, k = min n (2 ^ 63 - 1) - 1 := ⟨_, rfl⟩
      rw [← hk]
      by_cases hlt : k < parts.length
      · rw [if_pos (by omega), if_neg (by omega)]
        simp [hlt]
      · rw [if_neg (by omega)]
        simp [List.getElem?_eq_none (Nat.le_of_not_lt hlt)]
  | mbr parts =>
    by_cases h : n = 0
    · simp only [h, if_true]
      refine ⟨fun _ => ?_, fun hh => absurd ⟨trivial, _, rfl, by simp⟩ hh⟩
      rw [if_pos (by omega), if_pos (by omega)]
    · simp only [if_neg h]
      refine ⟨fun hh => absurd hh.1 h, fun _ => ?_⟩
      obtain ⟨k, hk⟩ : ∃ k, k = min n (2 ^ 63 - 1) - 1 := ⟨_, rfl⟩
      rw [← hk]
      by_cases hlt : k < parts.length
      · rw [if_pos (by omega), if_neg (by omega)]
        simp [hlt]
      · rw [if_neg (by omega)]
        simp [List.getElem?_eq_none (Nat.le_of_not_lt hlt)]

theorem volLine_run (vols : VolMap) (line : Bytes) (env : Prog.Env FReq FRep) (hist : Prog.Trace FReq FRep) :
    let v := ((mapGet vols (deviceOf line)).getD {}).mount (deviceOf line) (mountOf line) (fsOf line)
    (¬ IsPartitionName (deviceOf line) →
      OutT.run env hist (volLine vols line) = (.ret (mapPut vols (deviceOf line) v), [])) ∧
    (IsPartitionName (deviceOf line) → ∃ l : Look, l.Ok ∧ l.dev = deviceOf line ∧
      (l.Zero → OutT.run env hist (volLine vols line) = (.panic, l.seg)) ∧
      (¬ l.Zero → OutT.run env hist (volLine vols line) =
        (.ret (mapPut vols (deviceOf line) { v with partition := l.found.or v.partition }), l.seg))) := by
  intro v
  unfold volLine
  rw [mountFields_eq]
  dsimp only
  constructor
  · intro h
    cases hp : partitionMatch (deviceOf line) with
    | none => rfl
    | some x => exact absurd ⟨_, _, (partitionMatch_iff _ x.1 x.2).mp hp⟩ h
  · rintro ⟨parent, digits, hn⟩
    rw [(partitionMatch_iff _ _ _).mpr hn]
    dsimp only
    obtain ⟨o, tr, h1, h2, h3⟩ := parentInfo_run parent env hist
    rw [OutT.run_bind_ret _ _ h1]
    refine ⟨⟨deviceOf line, parent, digits, tr, o.map (·.table)⟩, ⟨hn, h2⟩, rfl, ?_⟩
    cases o with
    | none =>
      refine ⟨fun hz => ?_, fun _ => ?_⟩
      · obtain ⟨_, t, ht, _⟩ := hz
        simp at ht
      · dsimp only
        simp [Look.found]
        rfl
    | some b =>
      have := partitionOf_eq ⟨deviceOf line, parent, digits, tr, some b.table⟩ b rfl (h3 b rfl)
      dsimp only at this ⊢
      refine ⟨fun hz => ?_, fun hz => ?_⟩
      · rw [this.1 hz]
        simp [OutT.run_bind]
      · rw [this.2 hz]
        cases hf : Look.found ⟨deviceOf line, parent, digits, tr, some b.table⟩ with
        | none =>
          rw [show (Option.map (fun x : BasicInfo => x.table) (some b)) = some b.table from rfl, hf]
          simp [OutT.run_bind]
          rfl
        | some p =>
          rw [show (Option.map (fun x : BasicInfo => x.table) (some b)) = some b.table from rfl, hf]
          simp [OutT.run_bind]
          rfl

theorem partitionDevices_cons (line : Bytes) (rest : List Bytes) :
    (IsPartitionName (deviceOf line) → partitionDevices (line :: rest) = deviceOf line :: partitionDevices rest) ∧
    (¬ IsPartitionName (deviceOf line) → partitionDevices (line :: rest) = partitionDevices rest) := by
  unfold partitionDevices
  rw [List.map_cons]
  exact ⟨fun h => List.filter_cons_of_pos (by simpa using h), fun h => List.filter_cons_of_neg (by simpa using h)⟩

theorem lastFound_append (looks : List Look) (l : Look) (dev : Bytes) :
    lastFound (looks ++ [l]) dev = if l.dev = dev then l.found.or (lastFound looks dev) else lastFound looks dev := by
  unfold lastFound
  rw [List.filter_append, List.filterMap_append, List.getLast?_append]
  by_cases h : l.dev = dev
  · rw [if_pos h]
    cases hf : l.found <;> simp [h, hf]
  · rw [if_neg h]
    simp [h]

/-- The entries carry the last partition found so far. -/
def CarriesFound (looks : List Look) (vols : VolMap) : Prop :=
  (∀ e ∈ vols, e.2.partition = lastFound looks e.1) ∧ ∀ l ∈ looks, l.dev ∈ vols.map (·.1)

theorem carriesFound_prev {looks : List Look} {vols : VolMap} (C : CarriesFound looks vols) (d mnt fs : Bytes) :
    (((mapGet vols d).getD {}).mount d mnt fs).partition = lastFound looks d := by
  have hm : ∀ v : VolInfo, (v.mount d mnt fs).partition = v.partition := by
    intro v
    unfold VolInfo.mount
    by_cases h : v.path = [] <;> simp [h]
  rw [hm]
  cases hg : mapGet vols d with
  | some w => exact C.1 _ (mapGet_some hg)
  | none =>
    have hn := (mapGet_none_iff _ _).mp hg
    unfold lastFound
    rw [List.filter_eq_nil_iff.mpr]
    · rfl
    · intro l hl hd
      apply hn
      have := C.2 l hl
      simp only [decide_eq_true_eq] at hd
      rwa [hd] at this

theorem mapPut_key_mono {β : Type} (m : List (Bytes × β)) (k : Bytes) (v : β) {x : Bytes} (h : x ∈ m.map (·.1)) :
    x ∈ (mapPut m k v).map (·.1) := by
  rw [mapPut_keys]
  split
  · exact h
  · exact List.mem_append_left _ h

theorem mapPut_key_self {β : Type} (m : List (Bytes × β)) (k : Bytes) (v : β) :
    k ∈ (mapPut m k v).map (·.1) := by
  rw [mapPut_keys]
  split
  · assumption
  · simp

theorem volLoop_scan (env : Prog.Env FReq FRep) (ls : List (Bytes × Option GoErr)) :
    ∀ (hist : Prog.Trace FReq FRep) (looks : List Look) (vols : VolMap), CarriesFound looks vols →
    ∃ new : List Look, (∀ l ∈ new, l.Ok) ∧ (OutT.run env hist (volLoop ls vols)).2 = (new.map (·.seg)).flatten ∧
      ScanSpec ls looks new (OutT.run env hist (volLoop ls vols)).1 := by
  induction ls with
  | nil =>
    intro hist looks vols C
    refine ⟨[], by simp, rfl, rfl, by simp, by simp, ?_⟩
    intro e he
    rw [List.append_nil]
    exact C.1 e he
  | cons x rest ih =>
    intro hist looks vols C
    obtain ⟨line, e⟩ := x
    have hline := volLine_run vols line env hist
    dsimp only at hline
    have hprev := carriesFound_prev C (deviceOf line) (mountOf line) (fsOf line)
    obtain ⟨v, hv⟩ : ∃ v, v = ((mapGet vols (deviceOf line)).getD {}).mount (deviceOf line) (mountOf line) (fsOf line) :=
      ⟨_, rfl⟩
    rw [← hv] at hline hprev
    have hpd := partitionDevices_cons line
    unfold volLoop
    by_cases hp : IsPartitionName (deviceOf line)
    · obtain ⟨l, hok, hdev, hz, hnz⟩ := hline.2 hp
      by_cases hzero : l.Zero
      · rw [OutT.run_bind, hz hzero]
        dsimp only
        refine ⟨[l], by simpa using hok, by simp, [], l, [], line, rest.map (·.1), rfl, hzero, by simp, rfl, ?_⟩
        rw [List.nil_append, (hpd []).1 hp]
        simp [hdev, partitionDevices]
      · rw [OutT.run_bind_ret _ _ (hnz hzero)]
        cases e with
        | some e =>
          refine ⟨[l], by simpa using hok, by simp, by simpa using hzero, [], line, rest, rfl, by simp, ?_⟩
          rw [List.map_nil, List.nil_append, (hpd []).1 hp]
          simp [hdev, partitionDevices]
        | none =>
          dsimp only
          have C' : CarriesFound (looks ++ [l]) (mapPut vols (deviceOf line) { v with partition := l.found.or v.partition }) := by
            refine ⟨?_, ?_⟩
            · intro x hx
              rw [mem_mapPut] at hx
              rw [lastFound_append, hdev]
              rcases hx with rfl | ⟨hx, hne⟩
              · rw [if_pos rfl, hprev]
              · rw [if_neg (Ne.symm hne)]
                exact C.1 x hx
            · intro y hy
              simp only [List.mem_append, List.mem_singleton] at hy
              rcases hy with hy | rfl
              · exact mapPut_key_mono _ _ _ (C.2 y hy)
              · rw [hdev]; exact mapPut_key_self _ _ _
          obtain ⟨new, n1, n2, n3⟩ := ih (hist ++ l.seg) (looks ++ [l]) _ C'
          refine ⟨l :: new, ?_, ?_, ?_⟩
          · intro y hy
            simp only [List.mem_cons] at hy
            rcases hy with rfl | hy
            · exact hok
            · exact n1 y hy
          · rw [n2]; simp
          · revert n3
            cases (OutT.run env (hist ++ l.seg) (volLoop rest
              (mapPut vols (deviceOf line) { v with partition := l.found.or v.partition }))).1 with
            | running => exact id
            | panic =>
              rintro ⟨init, l', a, line', b, k1, k2, k3, k4, k5⟩
              refine ⟨l :: init, l', line :: a, line', b, by rw [k1]; rfl, k2, ?_, by rw [List.map_cons, k4]; rfl, ?_⟩
              · intro y hy
                simp only [List.mem_cons] at hy
                rcases hy with rfl | hy
                · exact hzero
                · exact k3 y hy
              · rw [List.cons_append, (hpd _).1 hp, List.map_cons, k5, hdev]
            | ret o =>
              cases o with
              | panic => exact id
              | err e =>
                rintro ⟨k1, a, line', b, k2, k3, k4⟩
                refine ⟨?_, (line, none) :: a, line', b, by rw [k2]; rfl, ?_, ?_⟩
                · intro y hy
                  simp only [List.mem_cons] at hy
                  rcases hy with rfl | hy
                  · exact hzero
                  · exact k1 y hy
                · intro y hy
                  simp only [List.mem_cons] at hy
                  rcases hy with rfl | hy
                  · rfl
                  · exact k3 y hy
                · show _ = partitionDevices (line :: (a.map (·.1) ++ [line']))
                  rw [(hpd _).1 hp, List.map_cons, k4, hdev]
              | ok vols' =>
                rintro ⟨k1, k2, k3, k4⟩
                refine ⟨?_, ?_, ?_, ?_⟩
                · rw [List.map_cons, List.map_cons, (hpd _).1 hp, k1, hdev]
                · intro y hy
                  simp only [List.mem_cons] at hy
                  rcases hy with rfl | hy
                  · exact hzero
                  · exact k2 y hy
                · intro y hy
                  simp only [List.mem_cons] at hy
                  rcases hy with rfl | hy
                  · rfl
                  · exact k3 y hy
                · simpa using k4
    · rw [OutT.run_bind_ret _ _ (hline.1 hp)]
      cases e with
      | some e =>
        refine ⟨[], by simp, by simp, by simp, [], line, rest, rfl, by simp, ?_⟩
        show _ = partitionDevices [line]
        rw [(hpd []).2 hp]
        simp [partitionDevices]
      | none =>
        dsimp only
        rw [List.append_nil]
        have C' : CarriesFound looks (mapPut vols (deviceOf line) v) := by
          refine ⟨?_, ?_⟩
          · intro x hx
            rw [mem_mapPut] at hx
            rcases hx with rfl | ⟨hx, hne⟩
            · exact hprev
            · exact C.1 x hx
          · intro y hy
            exact mapPut_key_mono _ _ _ (C.2 y hy)
        obtain ⟨new, n1, n2, n3⟩ := ih hist looks _ C'
        refine ⟨new, n1, by rw [n2]; simp, ?_⟩
        revert n3
        cases (OutT.run env hist (volLoop rest (mapPut vols (deviceOf line) v))).1 with
        | running => exact id
        | panic =>
          rintro ⟨init, l', a, line', b, k1, k2, k3, k4, k5⟩
          refine ⟨init, l', line :: a, line', b, k1, k2, k3, by rw [List.map_cons, k4]; rfl, ?_⟩
          rw [List.cons_append, (hpd _).2 hp, k5]
        | ret o =>
          cases o with
          | panic => exact id
          | err e =>
            rintro ⟨k1, a, line', b, k2, k3, k4⟩
            refine ⟨k1, (line, none) :: a, line', b, by rw [k2]; rfl, ?_, ?_⟩
            · intro y hy
              simp only [List.mem_cons] at hy
              rcases hy with rfl | hy
              · rfl
              · exact k3 y hy
            · rw [List.map_cons, List.cons_append, (hpd _).2 hp, k4]
          | ok vols' =>
            rintro ⟨k1, k2, k3, k4⟩
            refine ⟨?_, k2, ?_, k4⟩
            · rw [List.map_cons, (hpd _).2 hp, k1]
            · intro y hy
              simp only [List.mem_cons] at hy
              rcases hy with rfl | hy
              · rfl
              · exact k3 y hy

/-- C91: for every mount table and system behaviour the requests of the scan are the inquiries of the lines whose device is a
partition, one after the other, and the outcome is as specified: in particular each volume carries the partition found by
the last successful inquiry for its device. -/
theorem enum_volumes_partitions (m : Mounts) (ho : m.openErr = none) (env : Prog.Env FReq FRep)
    (hist : Prog.Trace FReq FRep) :
    ∃ looks : List Look, (∀ l ∈ looks, l.Ok) ∧
      (OutT.run env hist (enumVolumes m)).2 = (looks.map (·.seg)).flatten ∧
      ScanSpec m.lines [] looks (OutT.run env hist (enumVolumes m)).1 := by
  unfold enumVolumes
  rw [ho]
  exact volLoop_scan env m.lines hist [] [] ⟨by simp, by simp⟩

/-- C91: a reported partition has the start of the entry with its number in the table of the drive its name belongs to, and
this start is reported as its size as well, whatever the table says about the size. -/
theorem reported_partition (m : Mounts) (env : Prog.Env FReq FRep) (hist : Prog.Trace FReq FRep) (vols : VolMap)
    (h : (OutT.run env hist (enumVolumes m)).1 = .ret (.ok vols)) (e : Bytes × VolInfo) (he : e ∈ vols) (p : PartInfo)
    (hp : e.2.partition = some p) :
    ∃ parent digits d, PartitionName e.1 parent digits ∧ (FReq.diskfs parent, d) ∈ (OutT.run env hist (enumVolumes m)).2 ∧
      d.err = none ∧ p.devicePath = e.1 ∧ p.parentPath = parent ∧ p.size = p.start ∧ 1 ≤ numberOf digits ∧
      match d.table with
      | .none => False
      | .gpt _ parts => p.style = 2 ∧ p.mbrInfo = none ∧
          ∃ x, parts[min (numberOf digits) (2 ^ 63 - 1) - 1]? = some x ∧ p.start = x.start ∧
            p.gptInfo = some (upper (ascii "{" ++ x.type ++ ascii "}"), upper (ascii "{" ++ x.guid ++ ascii "}"))
      | .mbr parts => p.style = 1 ∧ p.gptInfo = none ∧
          ∃ x, parts[min (numberOf digits) (2 ^ 63 - 1) - 1]? = some x ∧ p.start = x.start ∧
            p.mbrInfo = some (x.type, x.bootable) := by
  have ho : m.openErr = none := by
    cases hh : m.openErr with
    | none => rfl
    | some e =>
      unfold enumVolumes at h
      rw [hh] at h
      simp at h
  obtain ⟨looks, h1, h2, h3⟩ := enum_volumes_partitions m ho env hist
  rw [h] at h3
  obtain ⟨_, hz, _, h4⟩ := h3
  have h5 := h4 e he
  rw [hp, List.nil_append] at h5
  have h6 := List.mem_of_getLast? h5.symm
  simp only [List.mem_filterMap, List.mem_filter, decide_eq_true_eq] at h6
  obtain ⟨l, ⟨hl, hd⟩, hf⟩ := h6
  have hnz := hz l hl
  obtain ⟨hn, hpr⟩ := h1 l hl
  rw [hd] at hn
  have hmem : ∀ x ∈ l.seg, x ∈ (OutT.run env hist (enumVolumes m)).2 := by
    intro x hx
    rw [h2]
    exact List.mem_flatten.mpr ⟨l.seg, List.mem_map_of_mem hl, hx⟩
  obtain ⟨dev, parent, digits, seg, table⟩ := l
  dsimp only at hd hn hpr hmem
  subst hd
  cases hpr with
  | noOpen r _ => simp [Look.found] at hf
  | noLibrary r d _ _ => simp [Look.found] at hf
  | noGeometry r d s z g _ _ _ => simp [Look.found] at hf
  | read r d s z g sector _ hde _ _ =>
    refine ⟨parent, digits, d, hn, hmem _ (by simp), hde, ?_⟩
    unfold Look.Zero at hnz
    unfold Look.found at hf
    dsimp only at hf hnz
    cases hdt : d.table with
    | none => rw [hdt] at hf; simp at hf
    | gpt guid parts =>
      rw [hdt] at hf hnz
      simp only [Option.map_eq_some_iff] at hf
      obtain ⟨x, hx, rfl⟩ := hf
      have : numberOf digits ≠ 0 := fun hh => hnz ⟨hh, _, rfl, by simp⟩
      exact ⟨rfl, rfl, rfl, by omega, rfl, rfl, x, hx, rfl, rfl⟩
    | mbr parts =>
      rw [hdt] at hf hnz
      simp only [Option.map_eq_some_iff] at hf
      obtain ⟨x, hx, rfl⟩ := hf
      have : numberOf digits ≠ 0 := fun hh => hnz ⟨hh, _, rfl, by simp⟩
      exact ⟨rfl, rfl, rfl, by omega, rfl, rfl, x, hx, rfl, rfl⟩

theorem probe_opens {parent : Bytes} {tr : Prog.Trace FReq FRep} {t : Option PartTable} (h : Probe parent tr t) :
    (opens tr).map (·.1) = [parent] ∧ ∀ fd, closings fd tr = 0 := by
  cases h with
  | noOpen r _ => exact ⟨rfl, fun _ => rfl⟩
  | noLibrary r d _ _ => exact ⟨rfl, fun _ => rfl⟩
  | noGeometry r d s z g _ _ _ => exact ⟨rfl, fun _ => rfl⟩
  | read r d s z g sector _ _ _ hs =>
    have h1 : opens sector = [] := by
      unfold opens
      rw [List.filterMap_eq_nil_iff]
      intro x hx
      rw [hs x hx]
    have h2 : ∀ fd, closings fd sector = 0 := by
      intro fd
      unfold closings
      rw [List.filter_eq_nil_iff.mpr]
      · rfl
      · intro x hx
        rw [hs x hx]
        simp
    refine ⟨?_, fun fd => ?_⟩
    · rw [opens_append, h1, List.append_nil]; rfl
    · rw [closings_append, h2]; rfl

/-- C92: a successful scan opens the parent drive once for every line whose device is a partition, however often the same
drive or device occurs, and closes none of the descriptors. -/
theorem enum_volumes_opens (m : Mounts) (ho : m.openErr = none) (env : Prog.Env FReq FRep) (hist : Prog.Trace FReq FRep)
    (vols : VolMap) (h : (OutT.run env hist (enumVolumes m)).1 = .ret (.ok vols)) :
    let tr := (OutT.run env hist (enumVolumes m)).2
    List.Forall₂ (fun dev path => ∃ digits, PartitionName dev path digits) (partitionDevices (m.lines.map (·.1)))
      ((opens tr).map (·.1)) ∧
    ∀ fd, closings fd tr = 0 := by
  intro tr
  obtain ⟨looks, h1, h2, h3⟩ := enum_volumes_partitions m ho env hist
  rw [h] at h3
  have hd := h3.1
  rw [← hd]
  clear hd h h3
  have htr : tr = (looks.map (·.seg)).flatten := h2
  rw [htr]
  clear htr h2 tr
  induction looks with
  | nil => exact ⟨List.Forall₂.nil, fun _ => rfl⟩
  | cons l ls ih =>
    have ih := ih (fun x hx => h1 x (List.mem_cons_of_mem _ hx))
    have hl := h1 l (by simp)
    have hp := probe_opens hl.2
    rw [List.map_cons, List.map_cons, List.flatten_cons, opens_append, List.map_append, hp.1]
    refine ⟨List.Forall₂.cons ⟨_, hl.1⟩ ih.1, fun fd => ?_⟩
    rw [closings_append, hp.2, ih.2]

/-- C93: the scan panics only because of a partition number 0 on a drive with a table; without such a device name it
returns. -/
theorem enum_volumes_panic (m : Mounts) (env : Prog.Env FReq FRep) (hist : Prog.Trace FReq FRep) :
    ((OutT.run env hist (enumVolumes m)).1 = .panic →
      ∃ line ∈ m.lines.map (·.1), ∃ parent digits d, PartitionName (deviceOf line) parent digits ∧ numberOf digits = 0 ∧
        (FReq.diskfs parent, d) ∈ (OutT.run env hist (enumVolumes m)).2 ∧ d.table ≠ .none) ∧
    ((∀ line ∈ m.lines.map (·.1), ∀ parent digits, PartitionName (deviceOf line) parent digits → numberOf digits ≠ 0) →
      ∃ o, (OutT.run env hist (enumVolumes m)).1 = .ret o ∧ o ≠ .panic) := by
  cases ho : m.openErr with
  | some e =>
    have : OutT.run env hist (enumVolumes m) = (.ret (.err e), []) := by
      unfold enumVolumes; rw [ho]; rfl
    rw [this]
    exact ⟨by simp, fun _ => ⟨_, rfl, by simp⟩⟩
  | none =>
    obtain ⟨looks, h1, h2, h3⟩ := enum_volumes_partitions m ho env hist
    have first : (OutT.run env hist (enumVolumes m)).1 = .panic →
      ∃ line ∈ m.lines.map (·.1), ∃ parent digits d, PartitionName (deviceOf line) parent digits ∧ numberOf digits = 0 ∧
        (FReq.diskfs parent, d) ∈ (OutT.run env hist (enumVolumes m)).2 ∧ d.table ≠ .none := by
      intro hp
      rw [hp] at h3
      obtain ⟨init, l, a, line, b, rfl, ⟨hz, t, ht, htn⟩, _, hls, hdev⟩ := h3
      have hl := h1 l (by simp)
      have hmem : l.dev ∈ partitionDevices (a ++ [line]) := by rw [← hdev]; simp
      unfold partitionDevices at hmem
      have hmem := (List.mem_filter.mp hmem).1
      simp only [List.mem_map] at hmem
      obtain ⟨line', hl', hd'⟩ := hmem
      refine ⟨line', ?_, l.parent, l.digits, ?_⟩
      · rw [hls]
        simp only [List.mem_append, List.mem_cons, List.not_mem_nil, or_false] at hl' ⊢
        rcases hl' with hl' | hl' <;> simp [hl']
      · rw [hd']
        have hpr := hl.2
        rw [ht] at hpr
        obtain ⟨sg, hsg⟩ : ∃ sg, sg = l.seg := ⟨_, rfl⟩
        obtain ⟨t', ht'⟩ : ∃ t', t' = some t := ⟨_, rfl⟩
        rw [← ht', ← hsg] at hpr
        cases hpr with
        | noOpen r _ => cases ht'
        | noLibrary r d _ _ => cases ht'
        | noGeometry r d s z g _ _ _ => cases ht'
        | read r d s z g sector _ hde _ _ =>
          refine ⟨d, hl.1, hz, ?_, ?_⟩
          · rw [h2]
            refine List.mem_flatten.mpr ⟨l.seg, List.mem_map_of_mem (by simp), ?_⟩
            rw [← hsg]
            simp
          · cases ht'
            exact htn
    refine ⟨first, fun hno => ?_⟩
    obtain ⟨o, hoe⟩ : ∃ o, o = (OutT.run env hist (enumVolumes m)).1 := ⟨_, rfl⟩
    rw [← hoe] at first h3 ⊢
    cases o with
    | panic =>
      obtain ⟨line, hl, parent, digits, d, h4, h5, _⟩ := first rfl
      exact absurd h5 (hno line hl parent digits h4)
    | running => exact absurd h3 id
    | ret o =>
      cases o with
      | panic => exact absurd h3 id
      | ok v => exact ⟨_, rfl, by simp⟩
      | err e => exact ⟨_, rfl, by simp⟩

theorem trace_replies {Q R α : Type} (env : Prog.Env Q R) (p : Prog Q R α) :
    ∀ (hist : Prog.Trace Q R), ∀ x ∈ (Prog.run env hist p).2, ∃ h, x.2 = env h x.1 := by
  induction p with
  | done a => intro hist x hx; simp at hx
  | ask q k ih =>
    intro hist x hx
    rw [Prog.run_ask] at hx
    simp only [List.mem_cons] at hx
    rcases hx with rfl | hx
    · exact ⟨hist, rfl⟩
    · exact ih _ _ x hx

theorem partitionName_unique {dev p1 d1 p2 d2 : Bytes} (h1 : PartitionName dev p1 d1) (h2 : PartitionName dev p2 d2) :
    p1 = p2 ∧ d1 = d2 := by
  rw [← partitionMatch_iff] at h1 h2
  rw [h1] at h2
  simpa using h2

/-- Every drive can be opened and has a partition table. -/
def AllReadable (env : Prog.Env FReq FRep) : Prop :=
  ∀ h p, (env h (.openDev p)).err = none ∧ (env h (.diskfs p)).err = none ∧ (env h (.diskfs p)).table ≠ .none ∧
    ∀ fd, SysOk (env h (.geometry fd))

/-- C93: with readable drives the scan of a table whose lines all arrive panics exactly if a device name has partition
number 0. -/
theorem enum_volumes_panic_iff (m : Mounts) (ho : m.openErr = none) (hl : ∀ l ∈ m.lines, l.2 = none)
    (env : Prog.Env FReq FRep) (hr : AllReadable env) (hist : Prog.Trace FReq FRep) :
    (OutT.run env hist (enumVolumes m)).1 = .panic ↔
      ∃ line ∈ m.lines.map (·.1), ∃ parent digits, PartitionName (deviceOf line) parent digits ∧ numberOf digits = 0 := by
  constructor
  · intro h
    obtain ⟨line, h1, parent, digits, d, h2, h3, _⟩ := (enum_volumes_panic m env hist).1 h
    exact ⟨line, h1, parent, digits, h2, h3⟩
  · rintro ⟨line, hline, parent, digits, hn, hz⟩
    obtain ⟨looks, h1, h2, h3⟩ := enum_volumes_partitions m ho env hist
    have hrep : ∀ l ∈ looks, ∀ x ∈ l.seg, ∃ h, x.2 = env h x.1 := by
      intro l hl x hx
      refine trace_replies env (enumVolumes m) hist x ?_
      have : x ∈ (OutT.run env hist (enumVolumes m)).2 := by
        rw [h2]
        exact List.mem_flatten.mpr ⟨l.seg, List.mem_map_of_mem hl, hx⟩
      exact this
    obtain ⟨o, hoe⟩ : ∃ o, o = (OutT.run env hist (enumVolumes m)).1 := ⟨_, rfl⟩
    rw [← hoe] at h3 ⊢
    cases o with
    | panic => rfl
    | running => exact absurd h3 id
    | ret o =>
      exfalso
      cases o with
      | panic => exact h3
      | err e =>
        obtain ⟨_, a, line', b, h4, _⟩ := h3
        have := hl (line', some e) (by rw [h4]; simp)
        cases this
      | ok v =>
        obtain ⟨h4, h5, _⟩ := h3
        have hmem : deviceOf line ∈ partitionDevices (m.lines.map (·.1)) := by
          unfold partitionDevices
          rw [List.mem_filter]
          exact ⟨List.mem_map_of_mem hline, by simpa using ⟨parent, digits, hn⟩⟩
        rw [← h4, List.mem_map] at hmem
        obtain ⟨l, hlm, hd⟩ := hmem
        obtain ⟨hok, hpr⟩ := h1 l hlm
        rw [hd] at hok
        obtain ⟨e1, e2⟩ := partitionName_unique hok hn
        apply h5 l hlm
        refine ⟨by rw [e2]; exact hz, ?_⟩
        have hrep := hrep l hlm
        obtain ⟨dev, pa, di, seg, table⟩ := l
        dsimp only at hpr hrep ⊢
        cases hpr with
        | noOpen r hh =>
          obtain ⟨h, he⟩ := hrep (FReq.openDev pa, r) (by simp)
          dsimp only at he
          rw [he] at hh
          exact absurd (hr h pa).1 hh
        | noLibrary r d _ hh =>
          obtain ⟨h, he⟩ := hrep (FReq.diskfs pa, d) (by simp)
          dsimp only at he
          rw [he] at hh
          exact absurd (hr h pa).2.1 hh
        | noGeometry r d s z g _ _ hh =>
          obtain ⟨h, he⟩ := hrep (FReq.geometry r.fd, g) (by simp)
          dsimp only at he
          rw [he] at hh
          exact absurd ((hr h pa).2.2.2 r.fd) hh
        | read r d s z g sector _ _ _ _ =>
          obtain ⟨h, he⟩ := hrep (FReq.diskfs pa, d) (by simp)
          dsimp only at he
          exact ⟨d.table, rfl, by rw [he]; exact (hr h pa).2.2.1⟩

/-! ### Lookups in the result -/

/-- C94: `GetList` reports every volume once: for each device of the mount table one record, with its path, the file system and
mount points of its lines, and the partition found for it, if any. -/
theorem volume_list {lines : List Bytes} {vols : VolMap} (G : Grouped lines vols) :
    ((volList vols).map (·.1)).Nodup ∧ (∀ d, d ∈ (volList vols).map (·.1) ↔ ∃ l ∈ lines, deviceOf l = d) ∧
    (∀ r ∈ volList vols, r.2.2.1 = (lines.filter (fun l => deviceOf l = r.1)).map mountOf ∧
      (r.1 ≠ [] → (lines.filter (fun l => deviceOf l = r.1)).head?.map fsOf = some r.2.1) ∧
      (r.1 = [] → (lines.filter (fun l => deviceOf l = r.1)).getLast?.map fsOf = some r.2.1)) ∧
    (∀ e ∈ vols, ∀ p, e.2.partition = some p ↔ ∃ r ∈ volList vols, r.1 = e.1 ∧ p ∈ r.2.2.2) := by
  have hp : (volList vols).map (·.1) = vols.map (·.1) := by
    unfold volList
    rw [List.map_map]
    exact List.map_congr_left (fun e he => G.path e he)
  have hone : ∀ (vs : VolMap), (vs.map (·.1)).Nodup → ∀ e ∈ vs, ∀ x ∈ vs, x.1 = e.1 → x = e := by
    intro vs
    induction vs with
    | nil => intro _ e he; cases he
    | cons a as ih =>
      intro hn e he x hx hxe
      rw [List.map_cons, List.nodup_cons] at hn
      rcases List.mem_cons.mp he with rfl | he' <;> rcases List.mem_cons.mp hx with rfl | hx'
      · rfl
      · exact absurd (hxe ▸ List.mem_map_of_mem hx') hn.1
      · exact absurd (hxe ▸ List.mem_map_of_mem he') hn.1
      · exact ih hn.2 e he' x hx' hxe
  refine ⟨by rw [hp]; exact G.once, by rw [hp]; exact G.devices, ?_, ?_⟩
  · intro r hr
    obtain ⟨e, he, rfl⟩ := List.mem_map.mp hr
    have h1 : (VolInfo.toVolumeInfo e.2).1 = e.1 := G.path e he
    rw [h1]
    exact ⟨G.mounts e he, G.first e he, G.last e he⟩
  · intro e he p
    constructor
    · intro h
      exact ⟨_, List.mem_map_of_mem he, G.path e he, by show p ∈ e.2.partition.toList; rw [h]; simp⟩
    · rintro ⟨r, hr, h1, h2⟩
      obtain ⟨x, hx, rfl⟩ := List.mem_map.mp hr
      have : x = e := hone vols G.once e he x hx ((G.path x hx).symm.trans h1)
      subst this
      have h2' : p ∈ x.2.partition.toList := h2
      simpa [Option.mem_toList] using h2'

/-- C94: among the volumes of a mount table, those of a drive are the ones whose device field is the drive's path: there is
one if the drive itself is mounted, none otherwise, even if its partitions are mounted. -/
theorem find_volumes_by_drive {lines : List Bytes} {vols : VolMap} (G : Grouped lines vols) (drive : Bytes) :
    ((∃ l ∈ lines, deviceOf l = drive) → ∃ v, findVolumesByDrive vols drive = [v] ∧ v.1 = drive ∧ v ∈ volList vols) ∧
    ((¬ ∃ l ∈ lines, deviceOf l = drive) → findVolumesByDrive vols drive = []) := by
  have hlen : ∀ vs : VolMap, (vs.map (·.1)).Nodup → (∀ e ∈ vs, e.2.path = e.1) →
      vs.filter (fun e => e.2.path == drive) = (vs.filter (fun e => e.2.path == drive)).take 1 := by
    intro vs
    induction vs with
    | nil => intro _ _; rfl
    | cons e es ih =>
      intro hn hp
      rw [List.map_cons, List.nodup_cons] at hn
      by_cases h : e.2.path = drive
      · rw [List.filter_cons_of_pos (by simpa using h)]
        have : es.filter (fun e => e.2.path == drive) = [] := by
          rw [List.filter_eq_nil_iff]
          intro x hx hxx
          apply hn.1
          have h1 := hp e (by simp)
          have h2 := hp x (by simp [hx])
          simp only [beq_iff_eq] at hxx
          rw [← h1, h, ← hxx, h2]
          exact List.mem_map_of_mem hx
        rw [this]
        rfl
      · rw [List.filter_cons_of_neg (by simpa using h)]
        exact ih hn.2 (fun x hx => hp x (by simp [hx]))
  have hl := hlen vols G.once G.path
  unfold findVolumesByDrive volList
  constructor
  · intro hex
    have := (G.devices drive).mpr hex
    rw [List.mem_map] at this
    obtain ⟨e, he, hk⟩ := this
    have hin : e ∈ vols.filter (fun e => e.2.path == drive) := by
      rw [List.mem_filter]
      exact ⟨he, by simp [G.path e he, hk]⟩
    cases hf : vols.filter (fun e => e.2.path == drive) with
    | nil => rw [hf] at hin; simp at hin
    | cons x xs =>
      rw [hf] at hl
      have hxs : xs = [] := by simpa using hl
      rw [hxs]
      refine ⟨_, rfl, ?_, ?_⟩
      · have : x ∈ vols.filter (fun e => e.2.path == drive) := by rw [hf]; simp
        have := (List.mem_filter.mp this).2
        simpa [VolInfo.toVolumeInfo] using this
      · have : x ∈ vols.filter (fun e => e.2.path == drive) := by rw [hf]; simp
        exact List.mem_map_of_mem (f := fun e : Bytes × VolInfo => e.2.toVolumeInfo) (List.mem_filter.mp this).1
  · intro hno
    rw [List.filter_eq_nil_iff.mpr]
    · rfl
    · intro e he hh
      simp only [beq_iff_eq] at hh
      apply hno
      apply (G.devices drive).mp
      rw [← hh, G.path e he]
      exact List.mem_map_of_mem he

/-! ### Opening by volume path -/

theorem lessSlash_iff (s p : Bytes) : LessSlash s p ↔ p = trimSuffix s 0x2f#8 := by
  unfold LessSlash trimSuffix
  rcases List.eq_nil_or_concat s with rfl | ⟨a, b, rfl⟩
  · constructor
    · rintro (h | ⟨h, -⟩)
      · simp at h
      · rw [← h]; rfl
    · rintro rfl
      exact .inr ⟨rfl, fun q h => by simp at h⟩
  · have e : (a.concat b).getLast? = some b := by simp
    rw [e, List.concat_eq_append, List.dropLast_concat]
    by_cases hb : b = 0x2f#8
    · subst hb
      rw [if_pos rfl]
      constructor
      · rintro (h | ⟨-, h⟩)
        · exact (List.append_inj_left' h rfl).symm
        · exact absurd rfl (h a)
      · rintro rfl
        exact .inl rfl
    · rw [if_neg (by simpa using hb)]
      constructor
      · rintro (h | ⟨h, -⟩)
        · have := List.append_inj_right' h rfl
          simp only [List.cons.injEq, and_true] at this
          exact absurd this hb
        · exact h.symm
      · rintro rfl
        refine .inr ⟨rfl, fun q h => hb ?_⟩
        have := List.append_inj_right' h rfl
        simp only [List.cons.injEq, and_true] at this
        exact this

/-- Every path has exactly one such form. -/
theorem lessSlash_unique (s : Bytes) : ∃ p, LessSlash s p ∧ ∀ p', LessSlash s p' → p' = p :=
  ⟨_, (lessSlash_iff s _).2 rfl, fun _ h => (lessSlash_iff s _).1 h⟩

/-- C70: which entry comes first decides. -/
theorem open_by_volume_path (n : Nat) (order : List (Bytes × Bytes) → List (Bytes × Bytes)) (path : Bytes)
    (env : Prog.Env FReq FRep) (hist : Prog.Trace FReq FRep) (e : Bytes × VolInfo) (rest : VolMap) (p pe : Bytes)
    (hp : LessSlash path p) (hpe : LessSlash e.2.path pe) :
    (pe = p →
      (OutT.run env hist (openDriveByVolumePath n order (e :: rest) path)).2 = (OutT.run env hist (openByPath n order p)).2 ∧
      ∀ o, (OutT.run env hist (openByPath n order p)).1 = .ret o →
        (OutT.run env hist (openDriveByVolumePath n order (e :: rest) path)).1 = .ret (some o)) ∧
    (pe ≠ p →
      OutT.run env hist (openDriveByVolumePath n order (e :: rest) path) = (.ret none, [])) ∧
    OutT.run env hist (openDriveByVolumePath n order [] path) = (.ret none, []) := by
  rw [lessSlash_iff] at hp hpe
  subst hp hpe
  refine ⟨fun h => ?_, fun h => ?_, rfl⟩
  · unfold openDriveByVolumePath
    dsimp only
    rw [if_pos h, OutT.run_bind]
    obtain ⟨⟨o, t⟩, ho⟩ : ∃ x, x = OutT.run env hist (openByPath n order (trimSuffix path 0x2f#8)) := ⟨_, rfl⟩
    rw [← ho]
    cases o with
    | ret o => simp
    | panic => simp
    | running => simp
  · unfold openDriveByVolumePath
    dsimp only
    rw [if_neg h]
    rfl

/-- C70: if two volumes have different paths, then for every path there is an iteration order of the map in which nothing is
opened and nil is returned without error. -/
theorem open_by_volume_path_order (n : Nat) (order : List (Bytes × Bytes) → List (Bytes × Bytes)) (path : Bytes)
    (vols : VolMap) (e1 e2 : Bytes × VolInfo) (h1 : e1 ∈ vols) (h2 : e2 ∈ vols)
    (p1 p2 : Bytes) (hp1 : LessSlash e1.2.path p1) (hp2 : LessSlash e2.2.path p2) (hne : p1 ≠ p2) :
    ∃ vols' : VolMap, vols'.Perm vols ∧ ∀ env hist,
      OutT.run env hist (openDriveByVolumePath n order vols' path) = (.ret none, []) := by
  rw [lessSlash_iff] at hp1 hp2
  subst hp1 hp2
  have main : ∀ e ∈ vols, trimSuffix e.2.path 0x2f#8 ≠ trimSuffix path 0x2f#8 →
      ∃ vols' : VolMap, vols'.Perm vols ∧ ∀ env hist,
      OutT.run env hist (openDriveByVolumePath n order vols' path) = (.ret none, []) := by
    intro e he hn
    obtain ⟨a, b, rfl⟩ := List.append_of_mem he
    refine ⟨e :: (a ++ b), List.perm_middle.symm, fun env hist => ?_⟩
    exact (open_by_volume_path n order path env hist e (a ++ b) _ _ ((lessSlash_iff _ _).2 rfl) ((lessSlash_iff _ _).2 rfl)).2.1 hn
  by_cases h : trimSuffix e1.2.path 0x2f#8 = trimSuffix path 0x2f#8
  · exact main e2 h2 (fun hh => hne (h.trans hh.symm))
  · exact main e1 h1 h

/-- C115: opening the drive of a partition that a volume of the enumeration reports is opening the drive its device name
belongs to: the same device `/dev/…<digit>` the partition table was read from, with all that follows. -/
theorem open_by_partition (m : Mounts) (env : Prog.Env FReq FRep) (hist : Prog.Trace FReq FRep) (vols : VolMap)
    (h : (OutT.run env hist (enumVolumes m)).1 = .ret (.ok vols)) (e : Bytes × VolInfo) (he : e ∈ vols) (p : PartInfo)
    (hp : e.2.partition = some p) (n : Nat) (order : List (Bytes × Bytes) → List (Bytes × Bytes)) :
    ∃ parent digits d, PartitionName e.2.path parent digits ∧
      (FReq.diskfs parent, d) ∈ (OutT.run env hist (enumVolumes m)).2 ∧
      openDriveByPartition n order p = openByPath n order parent ∧
      ∀ hist', ∃ r t, (OutT.run env hist' (openDriveByPartition n order p)).2 = (.openDev parent, r) :: t := by
  obtain ⟨parent, digits, d, h1, h2, -, -, h3, -⟩ := reported_partition m env hist vols h e he p hp
  have hg : e.2.path = e.1 := ((enum_volumes_grouping m env hist).1 vols h).2.2.path e he
  have hopen : openDriveByPartition n order p = openByPath n order parent := by
    unfold openDriveByPartition
    rw [h3]
  refine ⟨parent, digits, d, by rw [hg]; exact h1, h2, hopen, fun hist' => ?_⟩
  rw [hopen]
  unfold openByPath
  rw [OutT.run_ask_bind]
  exact ⟨_, _, rfl⟩

/-! ### The scanner -/

theorem scanFrom_line (readErr : Option GoErr) (l rest : Bytes) (hn : 0x0a#8 ∉ l) :
    ∀ cur : Bytes, cur.length + l.length < 65536 →
    scanFrom readErr cur (l ++ 0x0a#8 :: rest) =
      ((dropCR (cur ++ l), none) :: (scanFrom readErr [] rest).1, (scanFrom readErr [] rest).2) := by
  induction l with
  | nil =>
    intro cur _
    rw [List.nil_append, scanFrom, if_pos rfl, List.append_nil]
  | cons c cs ih =>
    intro cur hl
    simp only [List.mem_cons, not_or] at hn
    rw [List.length_cons] at hl
    rw [List.cons_append, scanFrom, if_neg (fun h => hn.1 h.symm), if_neg (by omega),
      ih hn.2 _ (by rw [List.length_append, List.length_singleton]; omega), List.append_assoc]
    rfl

theorem scanFrom_last (readErr : Option GoErr) (l : Bytes) (hn : 0x0a#8 ∉ l) :
    ∀ cur : Bytes, cur.length + l.length < 65536 →
    scanFrom readErr cur l = (if cur ++ l = [] then [] else [(dropCR (cur ++ l), readErr)], readErr) := by
  induction l with
  | nil => intro cur _; rw [scanFrom, List.append_nil]
  | cons c cs ih =>
    intro cur hl
    simp only [List.mem_cons, not_or] at hn
    rw [List.length_cons] at hl
    rw [scanFrom, if_neg (fun h => hn.1 h.symm), if_neg (by omega),
      ih hn.2 _ (by rw [List.length_append, List.length_singleton]; omega), List.append_assoc]
    rfl

theorem scanFrom_long (readErr : Option GoErr) (l rest : Bytes) (hn : 0x0a#8 ∉ l) :
    ∀ cur : Bytes, cur.length < 65536 → 65536 ≤ cur.length + l.length →
    scanFrom readErr cur (l ++ rest) = ([], some (.msg "bufio.Scanner: token too long")) := by
  induction l with
  | nil => intro cur h1 h2; simp at h2; omega
  | cons c cs ih =>
    intro cur h1 h2
    simp only [List.mem_cons, not_or] at hn
    rw [List.length_cons] at h2
    rw [List.cons_append, scanFrom, if_neg (fun h => hn.1 h.symm)]
    by_cases h : cur.length + 1 ≥ 65536
    · rw [if_pos h]
    · rw [if_neg h, ih hn.2 _ (by rw [List.length_append, List.length_singleton]; omega)
        (by rw [List.length_append, List.length_singleton]; omega)]

/-- Lines written with line feeds. -/
def written (ls : List Bytes) : Bytes := (ls.map (· ++ [0x0a#8])).flatten

theorem scan_written (readErr : Option GoErr) (ls : List Bytes) (rest : Bytes)
    (hl : ∀ l ∈ ls, 0x0a#8 ∉ l ∧ l.length < 65536) :
    scanFrom readErr [] (written ls ++ rest) =
      (ls.map (fun l => (dropCR l, none)) ++ (scanFrom readErr [] rest).1, (scanFrom readErr [] rest).2) := by
  induction ls with
  | nil => rfl
  | cons l ls ih =>
    have h := hl l (by simp)
    have : written (l :: ls) ++ rest = l ++ 0x0a#8 :: (written ls ++ rest) := by simp [written]
    rw [this, scanFrom_line _ _ _ h.1 _ (by simpa using h.2), ih (fun x hx => hl x (by simp [hx]))]
    rfl

/-- Every content is of one of the forms considered below: complete lines, then a rest without line feed that is the end or
has 65536 bytes or more. -/
theorem content_cases (content : Bytes) :
    ∃ (ls : List Bytes) (rest more : Bytes), (∀ l ∈ ls, 0x0a#8 ∉ l ∧ l.length < 65536) ∧ 0x0a#8 ∉ rest ∧
      content = written ls ++ rest ++ more ∧ (65536 ≤ rest.length ∨ more = [] ∧ rest.length < 65536) := by
  have main : ∀ (c cur : Bytes), 0x0a#8 ∉ cur → cur.length < 65536 →
      ∃ (ls : List Bytes) (rest more : Bytes), (∀ l ∈ ls, 0x0a#8 ∉ l ∧ l.length < 65536) ∧ 0x0a#8 ∉ rest ∧
      cur ++ c = written ls ++ rest ++ more ∧ (65536 ≤ rest.length ∨ more = [] ∧ rest.length < 65536) := by
    intro c
    induction c with
    | nil => intro cur h1 h2; exact ⟨[], cur, [], by simp, h1, by simp [written], Or.inr ⟨rfl, h2⟩⟩
    | cons x xs ih =>
      intro cur h1 h2
      by_cases hx : x = 0x0a#8
      · obtain ⟨ls, rest, more, k1, k2, k3, k4⟩ := ih [] (by simp) (by simp)
        refine ⟨cur :: ls, rest, more, ?_, k2, ?_, k4⟩
        · intro l hl
          simp only [List.mem_cons] at hl
          rcases hl with rfl | hl
          · exact ⟨h1, h2⟩
          · exact k1 l hl
        · rw [List.nil_append] at k3
          rw [hx, k3]
          simp [written]
      · have hc : 0x0a#8 ∉ cur ++ [x] := by
          simp only [List.mem_append, List.mem_singleton, not_or]
          exact ⟨h1, fun h => hx h.symm⟩
        by_cases hlen : cur.length + 1 ≥ 65536
        · exact ⟨[], cur ++ [x], xs, by simp, hc, by simp [written], Or.inl (by simpa using hlen)⟩
        · obtain ⟨ls, rest, more, k1, k2, k3, k4⟩ := ih (cur ++ [x]) hc (by simp; omega)
          exact ⟨ls, rest, more, k1, k2, by rw [← k3]; simp, k4⟩
  simpa using main content [] (by simp) (by simp)

theorem dropCR_lineText : dropCR = lineText := by
  funext l
  unfold dropCR lineText
  cases h : l.reverse with
  | nil =>
    have : l = [] := by simpa using h
    subst this
    rfl
  | cons c r =>
    have : l = r.reverse ++ [c] := by rw [← List.reverse_cons, ← h, List.reverse_reverse]
    subst this
    by_cases hc : c = 0x0d#8
    · simp [hc]
    · simp [hc]

/-- C95: what enumeration sees of the mount table, for content made of complete lines shorter than 65536 bytes and a rest
without line feed. (1) A read error after a complete line, or a rest of 65536 bytes or more (whatever follows it), is lost:
the result is that of the lines before it, without error. (2) A shorter non-empty rest is a last line, and a read error
after it is reported. -/
theorem enum_volumes_scanner (ls : List Bytes) (hl : ∀ l ∈ ls, 0x0a#8 ∉ l ∧ l.length < 65536) (rest : Bytes)
    (hr : 0x0a#8 ∉ rest) (readErr : Option GoErr) :
    enumVolumes (mountsOf (written ls) readErr) = enumVolumes (mountsOf (written ls) none) ∧
    (65536 ≤ rest.length → ∀ more, enumVolumes (mountsOf (written ls ++ rest ++ more) readErr) =
      enumVolumes (mountsOf (written ls) none)) ∧
    (rest ≠ [] → rest.length < 65536 →
      (mountsOf (written ls ++ rest) readErr).lines = ls.map (fun l => (lineText l, none)) ++ [(lineText rest, readErr)]) ∧
    (mountsOf (written ls) readErr).lines = ls.map (fun l => (lineText l, none)) := by
  rw [← dropCR_lineText]
  have e0 : ∀ re, scanFrom re [] (written ls) = (ls.map (fun l => (dropCR l, none)), re) := by
    intro re
    have := scan_written re ls [] hl
    rw [List.append_nil] at this
    rw [this]
    simp [scanFrom]
  refine ⟨?_, ?_, ?_, ?_⟩
  · unfold mountsOf enumVolumes
    rw [e0, e0]
  · intro h more
    unfold mountsOf enumVolumes
    rw [e0, List.append_assoc, scan_written _ _ _ hl, scanFrom_long _ _ _ hr _ (by simp) (by simpa using h),
      List.append_nil]
  · intro h1 h2
    unfold mountsOf
    rw [scan_written _ _ _ hl, scanFrom_last _ _ hr _ (by simpa using h2)]
    simp [h1]
  · unfold mountsOf
    rw [e0]

theorem volLoop_err (env : Prog.Env FReq FRep) (ls : List (Bytes × Option GoErr)) :
    ∀ (hist : Prog.Trace FReq FRep) (vols : VolMap) (x : GoErr),
    (OutT.run env hist (volLoop ls vols)).1 = .ret (.err x) → ∃ l ∈ ls, l.2 = some x := by
  induction ls with
  | nil => intro hist vols x h; simp [volLoop] at h
  | cons l rest ih =>
    intro hist vols x h
    obtain ⟨line, e⟩ := l
    unfold volLoop at h
    obtain ⟨w, h1, h2, _⟩ := OutT.run_bind_cases h
    cases e with
    | some e =>
      simp only [OutT.run_ret, Out.ret.injEq, Res.err.injEq] at h2
      exact ⟨_, List.mem_cons_self, by rw [h2]⟩
    | none =>
      simp only at h2
      obtain ⟨l, hl, hx⟩ := ih _ w x h2
      exact ⟨l, List.mem_cons_of_mem _ hl, hx⟩

/-- C95: a read error in the middle of a line (after `rest`, which has no line feed) is what enumeration returns, after
all lines including the incomplete one were looked at; a device named …p0 can make it panic instead (C93), and without
such a name it returns that error. -/
theorem enum_volumes_read_error (ls : List Bytes) (hl : ∀ l ∈ ls, 0x0a#8 ∉ l ∧ l.length < 65536) (rest : Bytes)
    (hr : 0x0a#8 ∉ rest) (h0 : rest ≠ []) (h1 : rest.length < 65536) (e : GoErr) (env : Prog.Env FReq FRep)
    (hist : Prog.Trace FReq FRep) :
    (∀ o, (OutT.run env hist (enumVolumes (mountsOf (written ls ++ rest) (some e)))).1 = .ret o → o = .err e ∨ o = .panic) ∧
    ((∀ line ∈ ls ++ [rest], ∀ parent digits, PartitionName (deviceOf (lineText line)) parent digits →
        numberOf digits ≠ 0) →
      (OutT.run env hist (enumVolumes (mountsOf (written ls ++ rest) (some e)))).1 = .ret (.err e)) := by
  have hlines := (enum_volumes_scanner ls hl rest hr (some e)).2.2.1 h0 h1
  have first : ∀ o, (OutT.run env hist (enumVolumes (mountsOf (written ls ++ rest) (some e)))).1 = .ret o →
      o = .err e ∨ o = .panic := by
    intro o ho
    cases o with
    | panic => exact Or.inr rfl
    | ok vols =>
      have := ((enum_volumes_grouping _ env hist).1 vols ho).2.1 (lineText rest, some e) (by rw [hlines]; simp)
      simp at this
    | err x =>
      left
      unfold enumVolumes at ho
      have hopen : (mountsOf (written ls ++ rest) (some e)).openErr = none := rfl
      rw [hopen] at ho
      obtain ⟨l, hm, hx⟩ := volLoop_err env _ _ _ _ ho
      rw [hlines] at hm
      simp only [List.mem_append, List.mem_map, List.mem_singleton] at hm
      rcases hm with ⟨y, _, rfl⟩ | rfl
      · simp at hx
      · simp only [Option.some.injEq] at hx
        rw [hx]
  refine ⟨first, ?_⟩
  intro hp
  obtain ⟨o, ho, hne⟩ := (enum_volumes_panic (mountsOf (written ls ++ rest) (some e)) env hist).2 (by
    rw [hlines]
    intro line hm
    simp only [List.map_append, List.map_map, List.mem_append, List.mem_map, Function.comp, List.map_cons, List.map_nil,
      List.mem_singleton] at hm
    rcases hm with ⟨y, hy, rfl⟩ | rfl
    · exact hp y (by simp [hy])
    · exact hp rest (by simp))
  rcases first o ho with rfl | rfl
  · exact ho
  · exact absurd rfl hne

example : (OutT.run (fun _ _ => {}) [] (enumVolumes (mountsOf (written [ascii "proc /proc proc rw"] ++ ascii "tmp")
    (some (.msg "EIO"))))).1 = .ret (.err (.msg "EIO")) :=
  (enum_volumes_read_error _ (by decide +kernel) _ (by decide +kernel) (by decide +kernel) (by decide +kernel) _ _ _).2 (by
    intro line hm parent digits hpn
    exfalso
    have : partitionMatch (deviceOf (lineText line)) = none := by
      simp only [List.cons_append, List.nil_append, List.mem_cons, List.not_mem_nil, or_false] at hm
      rcases hm with rfl | rfl <;> decide +kernel
    rw [(partitionMatch_iff _ _ _).2 hpn] at this
    simp at this)

/-! ### Cases -/

/-- Two GPT partitions on every drive. -/
def twoPartitions : Prog.Env FReq FRep := fun _ q => match q with
  | .openDev _ => { fd := 7 }
  | .diskfs _ => { table := .gpt (ascii "ab") [{ start := 2048, size := 100, type := ascii "t1", guid := ascii "g1" },
      { start := 4096, size := 200, type := ascii "t2", guid := ascii "g2" }] }
  | _ => {}

/-- A mount table with a partition mounted twice, a file system without device and a device without number. -/
def sampleMounts : Mounts := mountsOf
  (ascii "/dev/nvme0n1p2 / ext4 rw 0 0\n/dev/nvme0n1p2 /home btrfs rw 0 0\nproc /proc proc rw\n/dev/sda1 /mnt vfat rw") none

example : sampleMounts.lines.map (·.1) = [ascii "/dev/nvme0n1p2 / ext4 rw 0 0", ascii "/dev/nvme0n1p2 /home btrfs rw 0 0",
    ascii "proc /proc proc rw", ascii "/dev/sda1 /mnt vfat rw"] := by decide +kernel

/-- The enumeration succeeds; the partition entry has start and size 4096 although its size is 200. -/
example : (OutT.run twoPartitions [] (enumVolumes sampleMounts)).1 = .ret (.ok
    [(ascii "/dev/nvme0n1p2",
      { path := ascii "/dev/nvme0n1p2", filesystem := ascii "ext4",
        mounts := [ascii "/", ascii "/home"],
        partition := some
          { devicePath := ascii "/dev/nvme0n1p2", parentPath := ascii "/dev/nvme0n1", start := 4096,
            size := 4096, style := 2, gptInfo := some (ascii "{T2}", ascii "{G2}") } }),
     (ascii "proc", { path := ascii "proc", filesystem := ascii "proc", mounts := [ascii "/proc"] }),
     (ascii "/dev/sda1", { path := ascii "/dev/sda1", filesystem := ascii "vfat", mounts := [ascii "/mnt"] })]) := by
  decide +kernel

/-- C115: the partition of that volume leads to the drive. -/
example : (OutT.run twoPartitions [] (openDriveByPartition 3 id
    { devicePath := ascii "/dev/nvme0n1p2", parentPath := ascii "/dev/nvme0n1", start := 4096, size := 4096, style := 2 })).2.head?.map (·.1)
    = some (.openDev (ascii "/dev/nvme0n1")) := by decide +kernel
/-- C95: a line feed after a carriage return. -/
example : (mountsOf (ascii "a /a x\r\nb") none).lines = [(ascii "a /a x", none), (ascii "b", none)] ∧
    lineText (ascii "a\r\r") = ascii "a\r" := by decide +kernel

/-- The drive was opened twice, never closed. -/
example : (opens (OutT.run twoPartitions [] (enumVolumes sampleMounts)).2).map (·.1) =
    [ascii "/dev/nvme0n1", ascii "/dev/nvme0n1"] := by decide +kernel

example : PartitionName (ascii "/dev/nvme0n1p12") (ascii "/dev/nvme0n1") (ascii "12") ∧ numberOf (ascii "12") = 12 :=
  ⟨(partitionMatch_iff _ _ _).mp (by decide +kernel), by decide +kernel⟩

example : ¬ IsPartitionName (ascii "/dev/sda1") := by
  rintro ⟨p, d, h⟩
  have := (partitionMatch_iff _ _ _).mpr h
  have h2 : partitionMatch (ascii "/dev/sda1") = none := by decide +kernel
  rw [h2] at this
  cases this

example : AllReadable twoPartitions := by
  intro h p
  exact ⟨rfl, rfl, by simp [twoPartitions], fun fd => ⟨rfl, rfl⟩⟩

/-- Partition number 0. -/
example : (OutT.run twoPartitions [] (enumVolumes (mountsOf (ascii "/dev/nvme0n1p0 / ext4 rw") none))).1 = .panic := by
  decide +kernel

/-- A read error in the middle of a line is reported, one after a line is not. -/
example : (OutT.run twoPartitions [] (enumVolumes (mountsOf (ascii "proc /proc proc\npro") (some (.msg "EIO"))))).1 =
      .ret (.err (.msg "EIO")) ∧
    (OutT.run twoPartitions [] (enumVolumes (mountsOf (ascii "proc /proc proc\n") (some (.msg "EIO"))))).1 =
      .ret (.ok [(ascii "proc", { path := ascii "proc", filesystem := ascii "proc", mounts := [ascii "/proc"] })]) := by
  decide +kernel

/-- A long line: an overlay with more than 65536 bytes of options hides the rest of the table. -/
example : enumVolumes (mountsOf (written [ascii "a /a x"] ++ List.replicate 70000 0x61#8 ++ ascii "\nb /b x\n") none) =
    enumVolumes (mountsOf (written [ascii "a /a x"]) none) := by
  refine (enum_volumes_scanner [ascii "a /a x"] ?_ (List.replicate 70000 0x61#8) ?_ none).2.1 ?_ _
  · intro l hl
    simp only [List.mem_singleton] at hl
    subst hl
    decide +kernel
  · intro h
    have := List.eq_of_mem_replicate h
    simp at this
  · rw [List.length_replicate]; omega

/-- Two volumes: for either path there is an order that opens nothing. -/
example : ∃ vols' : VolMap, vols'.Perm [(ascii "/dev/sda1", { path := ascii "/dev/sda1" }), (ascii "proc", { path := ascii "proc" })] ∧
    ∀ env hist, OutT.run env hist (openDriveByVolumePath 2 id vols' (ascii "/dev/sda1/")) = (.ret none, []) :=
  open_by_volume_path_order 2 id _ _ _ _ List.mem_cons_self (List.mem_cons_of_mem _ (List.mem_singleton.mpr rfl))
    (ascii "/dev/sda1") (ascii "proc") ((lessSlash_iff _ _).2 (by decide +kernel)) ((lessSlash_iff _ _).2 (by decide +kernel))
    (by decide +kernel)

/-- A mounted partition is not found through its drive. -/
example : findVolumesByDrive [(ascii "/dev/nvme0n1p2", { path := ascii "/dev/nvme0n1p2" })] (ascii "/dev/nvme0n1") = [] ∧
    findVolumesByDrive [(ascii "/dev/sda", { path := ascii "/dev/sda" })] (ascii "/dev/sda") = [(ascii "/dev/sda", [], [], [])] := by
  decide +kernel

end Dparm
