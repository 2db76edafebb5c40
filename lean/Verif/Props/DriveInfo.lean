import Verif.Spec.DriveInfo
import Verif.Props.Factory
import Verif.Props.Text
import Verif.Lemmas.Text
/-!
# C89, C90: what is known about a drive before its driver answers
-/
namespace Dparm

theorem ioctlErr_none_iff (r : FRep) : ioctlErr r.ret r.errno = none ↔ SysOk r := by
  unfold ioctlErr SysOk
  split
  · simp; omega
  · split <;> simp <;> omega

/-- The result of the MBR reader as a function of the single read's answer. -/
def mbrOf (r : ReadAtRep) : Res (BitVec 32) :=
  match r.err with
  | some _ => .err (.msg "error reading MBR from file: %")
  | none =>
    if r.n ≠ 512 then .err (.msg "read only % bytes of MBR from file instead of expected %")
    else mbrFromBytes (copyAt (zeros 512) 0 (r.data.take 512))

theorem mbrRead_eq : mbrRead = (OutT.ask 512 >>= fun r => OutT.ret (mbrOf r)) := by
  unfold mbrRead mbrOf
  congr 1
  funext r
  obtain ⟨d, n, e⟩ := r
  cases e with
  | some e => rfl
  | none =>
    simp only
    split <;> rfl

/-- C89: `ReadBasicInfo` on any answers of the system: it succeeds exactly if the partition library opens the device and
the geometry call succeeds; then size and sector size are what their calls stored (0 if the call failed), the style is the
one of the table, the GPT id is lower-cased and the MBR signature is that of a well-formed sector (0 otherwise). -/
theorem basic_info (fd : Nat) (path : Bytes) (env : Prog.Env FReq FRep) (hist : Prog.Trace FReq FRep) :
    let d := env hist (.diskfs path)
    let h1 := hist ++ [(.diskfs path, d)]
    let s := env h1 (.sectorSize fd)
    let h2 := h1 ++ [(.sectorSize fd, s)]
    let z := env h2 (.totalSize fd)
    let h3 := h2 ++ [(.totalSize fd, z)]
    let g := env h3 (.geometry fd)
    let h4 := h3 ++ [(.geometry fd, g)]
    let sector := env h4 (.readAt path 512)
    ∃ o tr, OutT.run env hist (readBasicInfo fd path) = (.ret o, tr) ∧
      ((∃ b, o = .ok b) ↔ d.err = none ∧ SysOk g) ∧ o ≠ .panic ∧
      ∀ b, o = .ok b →
        b.table = d.table ∧
        (SysOk s → b.sectorSize = s.num) ∧ (¬ SysOk s → b.sectorSize = 0) ∧
        (SysOk z → b.totalBytes = z.num) ∧ (¬ SysOk z → b.totalBytes = 0) ∧
        match d.table with
        | .none => b.style = 0 ∧ b.gptDiskId = [] ∧ b.mbrSignature = 0
        | .gpt guid _ => b.style = 2 ∧ b.gptDiskId = lower guid ∧ b.mbrSignature = 0
        | .mbr _ => b.style = 1 ∧ b.gptDiskId = [] ∧
          (sector.data.length = 512 →
            (∀ v, sector.err = none ∧ sector.n = 512 ∧ mbrFromBytes sector.data = .ok v → b.mbrSignature = v) ∧
            ((¬ ∃ v, sector.err = none ∧ sector.n = 512 ∧ mbrFromBytes sector.data = .ok v) → b.mbrSignature = 0)) := by
  intro d h1 s h2 z h3 g h4 sector
  unfold readBasicInfo
  rw [OutT.run_ask_bind]
  show ∃ o tr, ((OutT.run env h1 (match d.err with
    | some _ => _
    | none => _ : FM (Res BasicInfo))).1, (_, d) :: _) = _ ∧ _
  cases hd : d.err with
  | some e => exact ⟨_, _, rfl, by simp, by simp, by simp⟩
  | none =>
    simp only
    rw [OutT.run_ask_bind]
    show ∃ o tr, ((OutT.run env h2 _).1, _) = _ ∧ _
    rw [OutT.run_ask_bind]
    show ∃ o tr, ((OutT.run env h3 _).1, _) = _ ∧ _
    rw [OutT.run_ask_bind]
    show ∃ o tr, ((OutT.run env h4 (match ioctlErr g.ret g.errno with
      | some _ => _
      | none => _ : FM (Res BasicInfo))).1, _) = _ ∧ _
    cases hg : ioctlErr g.ret g.errno with
    | some e =>
      refine ⟨_, _, rfl, ?_, by simp, by simp⟩
      have : ¬ SysOk g := fun h => by rw [(ioctlErr_none_iff g).mpr h] at hg; cases hg
      simp [this]
    | none =>
      have hok : SysOk g := (ioctlErr_none_iff g).mp hg
      obtain ⟨b0, hb0⟩ : ∃ b0 : BasicInfo, b0 =
        { sectorSize := if ioctlErr s.ret s.errno = none then s.num else 0,
          totalBytes := if ioctlErr z.ret z.errno = none then z.num else 0 } := ⟨_, rfl⟩
      have f1 : SysOk s → b0.sectorSize = s.num := by
        intro h; rw [hb0]; exact if_pos ((ioctlErr_none_iff s).mpr h)
      have f2 : ¬ SysOk s → b0.sectorSize = 0 := by
        intro h; rw [hb0]; exact if_neg (fun hh => h ((ioctlErr_none_iff s).mp hh))
      have f3 : SysOk z → b0.totalBytes = z.num := by
        intro h; rw [hb0]; exact if_pos ((ioctlErr_none_iff z).mpr h)
      have f4 : ¬ SysOk z → b0.totalBytes = 0 := by
        intro h; rw [hb0]; exact if_neg (fun hh => h ((ioctlErr_none_iff z).mp hh))
      have f5 : b0.style = 0 ∧ b0.gptDiskId = [] ∧ b0.mbrSignature = 0 := by rw [hb0]; exact ⟨rfl, rfl, rfl⟩
      simp only
      rw [← hb0]
      have key : ∃ b tr, OutT.run env h4 (basicTable path d.table b0) = (.ret b, tr) ∧
          b.table = d.table ∧ b.sectorSize = b0.sectorSize ∧ b.totalBytes = b0.totalBytes ∧
          match d.table with
          | .none => b.style = 0 ∧ b.gptDiskId = [] ∧ b.mbrSignature = 0
          | .gpt guid _ => b.style = 2 ∧ b.gptDiskId = lower guid ∧ b.mbrSignature = 0
          | .mbr _ => b.style = 1 ∧ b.gptDiskId = [] ∧
            (sector.data.length = 512 →
              (∀ v, sector.err = none ∧ sector.n = 512 ∧ mbrFromBytes sector.data = .ok v → b.mbrSignature = v) ∧
              ((¬ ∃ v, sector.err = none ∧ sector.n = 512 ∧ mbrFromBytes sector.data = .ok v) → b.mbrSignature = 0)) := by
        cases ht : d.table with
        | none => exact ⟨_, _, rfl, rfl, rfl, rfl, f5⟩
        | gpt guid ps => exact ⟨_, _, rfl, rfl, rfl, rfl, rfl, rfl, f5.2.2⟩
        | mbr ps =>
          obtain ⟨o, r1, r2, r3, r4⟩ :=
            mbr_read (fun _ _ => ({ data := sector.data, n := sector.n, err := sector.err } : ReadAtRep)) []
          have ho : mbrOf { data := sector.data, n := sector.n, err := sector.err } = o := by
            rw [mbrRead_eq, OutT.run_ask_bind] at r1
            simpa using r1
          have hrun : OutT.run env h4 (OutT.interp (fun n => do
              let r ← (OutT.ask (.readAt path n) : FM FRep)
              OutT.ret ({ data := r.data, n := r.n, err := r.err } : ReadAtRep)) mbrRead) =
              (.ret o, [(.readAt path 512, sector)]) := by
            rw [mbrRead_eq]
            rw [← ho]
            rfl
          unfold basicTable
          simp only
          rw [OutT.run_bind_ret env h4 hrun]
          simp only at r3 r4
          cases o with
          | panic => exact absurd rfl r2
          | ok v =>
            refine ⟨_, _, rfl, rfl, rfl, rfl, rfl, f5.2.1, fun hl => ⟨fun w hw => ?_, fun hn => ?_⟩⟩
            · have := (r3 w hl).mpr hw
              simpa using this
            · exact absurd ⟨v, (r3 v hl).mp rfl⟩ hn
          | err e =>
            refine ⟨_, _, rfl, rfl, rfl, rfl, rfl, f5.2.1, fun hl => ⟨fun w hw => ?_, fun _ => f5.2.2⟩⟩
            have := (r3 w hl).mpr hw
            cases this
      obtain ⟨b, tr, k1, k2, k3, k4, k5⟩ := key
      rw [OutT.run_bind_ret env h4 k1]
      refine ⟨_, _, rfl, by simp [hok], by simp, ?_⟩
      intro b' hb'
      simp only [Res.ok.injEq] at hb'
      subst hb'
      exact ⟨k2, by rw [k3]; exact f1, by rw [k3]; exact f2, by rw [k4]; exact f3, by rw [k4]; exact f4, k5⟩

/-- GPT disk with failing sector size call, then a disk whose geometry call fails. -/
example :
    let env : Prog.Env FReq FRep := fun _ q => match q with
      | .diskfs _ => { table := .gpt (ascii "AB-1") [] }
      | .sectorSize _ => { errno := 25 }
      | .totalSize _ => { num := 1000 }
      | _ => {}
    (OutT.run env [] (readBasicInfo 3 (ascii "/dev/sda"))).1 =
      .ret (.ok { style := 2, table := .gpt (ascii "AB-1") [], gptDiskId := ascii "ab-1", totalBytes := 1000 }) ∧
    (OutT.run (fun h q => match q with
        | .geometry _ => { errno := 25 }
        | q => env h q) [] (readBasicInfo 3 (ascii "/dev/sda"))).1 = .ret (.err (.msg "HDIO_GETGEO failed")) := by
  decide +kernel

/-- What the drivers cannot change: the fields filled before they are tried. -/
def Opened.early (o : Opened) : Bytes × Int × Nat × Bytes × BitVec 32 × BitVec 64 × Bytes :=
  (o.devicePath, o.removable, o.partitionStyle, o.gptDiskId, o.mbrSignature, o.totalCapacity, o.vendorId)

theorem tryDrivers_early (fd n : Nat) : ∀ i o, OutT.Returns (fun x => x.early = o.early) (tryDrivers fd n i o) := by
  induction n with
  | zero => intro i o; exact OutT.returns_ret rfl
  | succ n ih =>
    intro i o
    unfold tryDrivers
    refine OutT.returns_bind (OutT.returns_any _) (fun r _ => ?_)
    dsimp only
    split
    · exact ih _ _
    · refine OutT.returns_bind (OutT.returns_any _) (fun ty _ => ?_)
      refine OutT.returns_bind (OutT.returns_any _) (fun nm _ => ?_)
      refine OutT.returns_bind (OutT.returns_any _) (fun x _ => ?_)
      have := ih (i + 1) { o with handle := x.1, source := some (i, fd), drivingType := ty, driverName := nm }
      exact this

/-- C89: the record of an opened drive carries the result of `ReadBasicInfo` on the opened descriptor if that succeeded,
and otherwise capacity 0, style "raw" and no ids, although size and table may be known. `vendor` is from the second probe. -/
theorem opened_basic_info (n : Nat) (order : List (Bytes × Bytes) → List (Bytes × Bytes)) (path : Bytes)
    (env : Prog.Env FReq FRep) (hist : Prog.Trace FReq FRep) (o : Opened)
    (h : (OutT.run env hist (openByPath n order path)).1 = .ret (.ok o)) :
    let r := env hist (.openDev path)
    let h1 := hist ++ [(.openDev path, r)]
    let p := OutT.run env h1 (readBasicInfo r.fd path)
    let h2 := h1 ++ p.2
    let id := OutT.run env h2 (getIdInfo order path)
    o.devicePath = path ∧ o.removable = -1 ∧
    (∀ b, p.1 = .ret (.ok b) → o.partitionStyle = b.style ∧ o.gptDiskId = b.gptDiskId ∧ o.mbrSignature = b.mbrSignature ∧
      o.totalCapacity = b.totalBytes) ∧
    (∀ e, p.1 = .ret (.err e) → o.partitionStyle = 0 ∧ o.gptDiskId = [] ∧ o.mbrSignature = 0 ∧ o.totalCapacity = 0) ∧
    (∀ i e, id.1 = .ret (i, e) → o.vendorId = i.vendor) ∧
    (o.handle.dh = none → ∀ i e, id.1 = .ret (i, e) →
      o.handle.info.model = i.model ∧ o.handle.info.serial = i.serial ∧ o.handle.info.firmware = i.rev) := by
  intro r h1 p h2 id
  obtain ⟨before, tr, q1, q2, q3, D⟩ := open_by_path_drivers n order path env hist o h
  unfold openByPath at h
  rw [OutT.run_ask_bind] at h
  change (OutT.run env h1 (match r.err with
    | some e => OutT.ret (.err e)
    | none => _ : FM (Res Opened))).1 = _ at h
  have q2' : r.err = none := q2
  rw [q2'] at h
  obtain ⟨x, g1, g2, g3⟩ := OutT.run_bind_cases h
  have hx := OutT.returns_run (openByFd_returns n order r.fd path) env _ x g1
  obtain ⟨o', e2⟩ := x
  simp only at hx
  subst hx
  simp only [OutT.run_ret, Out.ret.injEq, Res.ok.injEq] at g2
  subst g2
  unfold openByFd at g1
  obtain ⟨b, k1, k2, k3⟩ := OutT.run_bind_cases g1
  obtain ⟨y, k4, k5, k6⟩ := OutT.run_bind_cases k2
  obtain ⟨o'', k7, k8, k9⟩ := OutT.run_bind_cases k5
  have ho : o'' = o' := by
    simp only [OutT.run_ret, Out.ret.injEq, Prod.mk.injEq] at k8
    exact k8.1
  subst ho
  have he := OutT.returns_run (tryDrivers_early r.fd n 0 (basicOpened path b y.1)) env _ _ k7
  have D2 := tryDrivers_spec r.fd env n 0 _ _ o'' k7
  simp only [Opened.early, Prod.mk.injEq] at he
  obtain ⟨e1, e2, e3, e4, e5, e6, e7⟩ := he
  have hp : p.1 = .ret b := k1
  have hid : id.1 = .ret y := k4
  refine ⟨?_, ?_, ?_, ?_, ?_, ?_⟩
  · rw [e1]; exact (basicOpened_fresh path b y.1).devicePath
  · rw [e2]; exact (basicOpened_fresh path b y.1).removable
  · intro b' hb'
    rw [hp] at hb'
    simp only [Out.ret.injEq] at hb'
    subst hb'
    exact ⟨e3, e4, e5, e6⟩
  · intro e hb'
    rw [hp] at hb'
    simp only [Out.ret.injEq] at hb'
    subst hb'
    exact ⟨e3, e4, e5, e6⟩
  · intro i e hi
    rw [hid] at hi
    simp only [Out.ret.injEq] at hi
    rw [e7]
    subst hi
    cases b <;> rfl
  · intro hdh i e hi
    rw [hid] at hi
    simp only [Out.ret.injEq] at hi
    subst hi
    have hn : o'' = basicOpened path b i := by
      apply D2.nothing
      have := D2.dh
      rw [hdh] at this
      cases hl : lastAccepted (OutT.run env _ (tryDrivers r.fd n 0 (basicOpened path b i))).2 with
      | none => rfl
      | some t =>
        simp only at this
        rw [hl] at this
        simp at this
    rw [hn]
    cases b <;> exact ⟨rfl, rfl, rfl⟩

/-- C90: which links are passed over. -/
theorem ignored_iff (name : Bytes) : skipId name = true ↔ Ignored name := by
  unfold skipId Ignored
  simp only [Bool.or_eq_true, contains_iff, nvmeDot_iff, Occurs]
  constructor
  · rintro (((h | h) | h) | h)
    · exact Or.inr (Or.inr (Or.inr h))
    · exact Or.inl h
    · exact Or.inr (Or.inl h)
    · exact Or.inr (Or.inr (Or.inl h))
  · rintro (h | h | h | h)
    · exact Or.inl (Or.inl (Or.inr h))
    · exact Or.inl (Or.inr h)
    · exact Or.inr h
    · exact Or.inl (Or.inl (Or.inl h))

/-- The names that are resolved. -/
def considered (names : List Bytes) : List Bytes := names.filter (fun nm => !skipId nm)

theorem mem_considered (names : List Bytes) (nm : Bytes) : nm ∈ considered names ↔ nm ∈ names ∧ ¬ Ignored nm := by
  unfold considered
  rw [List.mem_filter, ← ignored_iff]
  simp

theorem mapPut_new {β : Type} (m : List (Bytes × β)) (k : Bytes) (v : β) (h : k ∉ m.map (·.1)) :
    mapPut m k v = m ++ [(k, v)] := by
  unfold mapPut
  rw [if_neg]
  simp only [List.any_eq_true, beq_iff_eq, not_exists, not_and]
  intro e he hk
  exact h (by rw [← hk]; exact List.mem_map_of_mem he)

theorem idEntries_run (env : Prog.Env FReq FRep) (names : List Bytes) :
    ∀ (hist : Prog.Trace FReq FRep) (m : List (Bytes × Bytes)), names.Nodup → (∀ n ∈ names, n ∉ m.map (·.1)) →
    ∃ res tr, OutT.run env hist (idEntries names m) = (.ret res, tr) ∧ res ≠ .panic ∧
      (resolved tr).length = tr.length ∧
      ((∃ e, res = .err e) ↔ ∃ x ∈ resolved tr, x.2.err ≠ none) ∧
      (resolved tr).map (·.1) <+: (considered names).map (fun nm => idPath ++ 0x2f#8 :: nm) ∧
      ∀ m', res = .ok m' → (resolved tr).map (·.1) = (considered names).map (fun nm => idPath ++ 0x2f#8 :: nm) ∧
        m' = m ++ (considered names).zipWith (fun nm (r : FRep) => (nm, r.data)) ((resolved tr).map (·.2)) := by
  induction names with
  | nil =>
    intro hist m _ _
    refine ⟨.ok m, [], rfl, by simp, rfl, by simp [resolved], by simp [resolved], ?_⟩
    intro m' hm'
    simp only [Res.ok.injEq] at hm'
    subst hm'
    simp [resolved, considered]
  | cons name rest ih =>
    intro hist m hnd hnew
    simp only [List.nodup_cons] at hnd
    unfold idEntries
    by_cases hs : skipId name = true
    · rw [if_pos hs]
      have hc : considered (name :: rest) = considered rest := by
        unfold considered; rw [List.filter_cons, if_neg (by simp [hs])]
      rw [hc]
      exact ih hist m hnd.2 (fun n hn => hnew n (by simp [hn]))
    · rw [if_neg hs]
      have hc : considered (name :: rest) = name :: considered rest := by
        unfold considered; rw [List.filter_cons, if_pos (by simp [hs])]
      rw [hc, OutT.run_ask_bind]
      obtain ⟨r, hr⟩ : ∃ r, r = env hist (.evalSymlinks (idPath ++ 0x2f#8 :: name)) := ⟨_, rfl⟩
      rw [← hr]
      cases he : r.err with
      | some e =>
        refine ⟨_, _, rfl, by simp, by simp [resolved], ?_, ?_, by simp⟩
        · simp [resolved, he]
        · simp [resolved]
      | none =>
        simp only
        rw [mapPut_new m name r.data (hnew name (by simp))]
        obtain ⟨res, tr, h1, h2, h3, h4, h5, h6⟩ := ih (hist ++ [(.evalSymlinks (idPath ++ 0x2f#8 :: name), r)])
          (m ++ [(name, r.data)]) hnd.2 (by
            intro n hn
            simp only [List.map_append, List.map_cons, List.map_nil, List.mem_append, List.mem_singleton, not_or]
            refine ⟨hnew n (by simp [hn]), ?_⟩
            rintro rfl
            exact hnd.1 hn)
        rw [h1]
        have hres : resolved ((.evalSymlinks (idPath ++ 0x2f#8 :: name), r) :: tr) =
          (idPath ++ 0x2f#8 :: name, r) :: resolved tr := rfl
        refine ⟨res, _, rfl, h2, ?_, ?_, ?_, ?_⟩
        · rw [hres]; simp [h3]
        · rw [hres, h4]; simp [he]
        · rw [hres, List.map_cons, List.map_cons]
          exact (List.prefix_cons_inj _).mpr h5
        · intro m' hm'
          obtain ⟨g1, g2⟩ := h6 m' hm'
          rw [hres, List.map_cons, List.map_cons, g1]
          refine ⟨rfl, ?_⟩
          rw [g2, List.map_cons, List.zipWith_cons_cons]
          simp

theorem namesDrive_of_search (name : Bytes) (h : 0x5f#8 ∈ name) :
    NamesDrive name (cut (name.take (lastIndex name 0x5f#8).toNat) 0x2d#8).2.1
      (name.drop ((lastIndex name 0x5f#8).toNat + 1)) := by
  rcases split_last name 0x5f#8 with h' | ⟨a, b, rfl, hb⟩
  · exact absurd h h'
  · rw [lastIndex_found a b _ hb]
    have e1 : ((a.length : Int)).toNat = a.length := by omega
    rw [e1]
    have e2 : (a ++ 0x5f#8 :: b).take a.length = a := List.take_left
    have e3 : (a ++ 0x5f#8 :: b).drop (a.length + 1) = b := by
      rw [← List.drop_drop, List.drop_left]; rfl
    rw [e2, e3]
    exact ⟨a, rfl, hb, cut_snd a⟩

theorem lastIndex_neg_iff (s : Bytes) (c : Byte) : lastIndex s c = -1 ↔ c ∉ s := by
  constructor
  · intro h
    rcases split_last s c with h' | ⟨a, b, rfl, hb⟩
    · exact h'
    · rw [lastIndex_found a b c hb] at h
      omega
  · exact lastIndex_none s c

theorem idSearch_spec (path : Bytes) (m : List (Bytes × Bytes)) :
    (∃ e ∈ m, e.2 = path ∧ NamesDrive e.1 (idSearch path m).1 (idSearch path m).2) ∨
    ((∀ e ∈ m, e.2 = path → 0x5f#8 ∉ e.1) ∧ idSearch path m = ([], [])) := by
  induction m with
  | nil => right; exact ⟨by simp, rfl⟩
  | cons e rest ih =>
    obtain ⟨id, dev⟩ := e
    unfold idSearch
    by_cases hp : path = dev
    · rw [if_pos hp]
      by_cases hd : lastIndex id 0x5f#8 = -1
      · simp only [if_pos hd]
        have hn := (lastIndex_neg_iff id _).mp hd
        rcases ih with ⟨e, he, h1, h2⟩ | ⟨h1, h2⟩
        · left; exact ⟨e, by simp [he], h1, h2⟩
        · right
          refine ⟨?_, h2⟩
          intro e he hpe
          simp only [List.mem_cons] at he
          rcases he with rfl | he
          · exact hn
          · exact h1 e he hpe
      · simp only [if_neg hd]
        left
        refine ⟨(id, dev), by simp, hp.symm, ?_⟩
        apply namesDrive_of_search
        by_cases hm : (0x5f#8 : Byte) ∈ id
        · exact hm
        · exact absurd ((lastIndex_neg_iff id _).mpr hm) hd
    · rw [if_neg hp]
      rcases ih with ⟨e, he, h1, h2⟩ | ⟨h1, h2⟩
      · left; exact ⟨e, by simp [he], h1, h2⟩
      · right
        refine ⟨?_, h2⟩
        intro e he hpe
        simp only [List.mem_cons] at he
        rcases he with rfl | he
        · exact absurd hpe.symm hp
        · exact h1 e he hpe

/-- A name carries at most one model and serial. -/
theorem namesDrive_unique {name m1 s1 m2 s2 : Bytes} (h1 : NamesDrive name m1 s1) (h2 : NamesDrive name m2 s2) :
    m1 = m2 ∧ s1 = s2 := by
  obtain ⟨p1, e1, n1, c1⟩ := h1
  obtain ⟨p2, e2, n2, c2⟩ := h2
  have l1 := lastIndex_found p1 s1 _ n1
  have l2 := lastIndex_found p2 s2 _ n2
  rw [← e1] at l1
  rw [← e2, l1] at l2
  have hl : p1.length = p2.length := by omega
  have hh := e1.symm.trans e2
  have hp := List.append_inj hh hl
  obtain ⟨rfl, hs⟩ := hp
  simp only [List.cons.injEq, true_and] at hs
  refine ⟨?_, hs⟩
  rcases c1 with ⟨b1, q1, r1⟩ | ⟨q1, r1⟩ <;> rcases c2 with ⟨b2, q2, r2⟩ | ⟨q2, r2⟩
  · have := cut_found b1 m1 _ r1
    rw [← q1] at this
    have t2 := cut_found b2 m2 _ r2
    rw [← q2, this] at t2
    simp only [Prod.mk.injEq] at t2
    exact t2.2.1
  · exact absurd (by rw [q1]; simp) q2
  · exact absurd (by rw [q2]; simp) q1
  · rw [r1, r2]

/-- C90: model and serial of a drive as read from /dev/disk/by-id (a directory: no name twice), for every machine and every
iteration order of the map. An unreadable directory or one link that cannot be resolved, whichever drive it is for, leaves
everything empty. Otherwise exactly the links not passed over are resolved, and model and serial are those carried by the
name of some link that leads to the drive and contains an underscore; empty if there is none. Vendor and revision are the
trimmed sysfs texts of the last component of the path. -/
theorem id_info (order : List (Bytes × Bytes) → List (Bytes × Bytes)) (ho : ∀ m, (order m).Perm m) (path : Bytes)
    (env : Prog.Env FReq FRep) (hist : Prog.Trace FReq FRep)
    (hnd : (env hist (.readDir byIdDir)).names.Nodup) :
    let names := (env hist (.readDir byIdDir)).names
    ∃ i e tr, OutT.run env hist (getIdInfo order path) = (.ret (i, e), tr) ∧
      (e = none ↔ (env hist (.readDir byIdDir)).err = none ∧ ∀ x ∈ resolved tr, x.2.err = none) ∧
      (e ≠ none → i = {}) ∧
      (resolved tr).map (·.1) <+: (considered names).map (fun nm => byIdDir ++ 0x2f#8 :: nm) ∧
      (e = none →
        (resolved tr).map (·.1) = (considered names).map (fun nm => byIdDir ++ 0x2f#8 :: nm) ∧
        ((∃ link ∈ (considered names).zip ((resolved tr).map (·.2)), link.2.data = path ∧
            NamesDrive link.1 i.model i.serial) ∨
          ((∀ link ∈ (considered names).zip ((resolved tr).map (·.2)), link.2.data = path → 0x5f#8 ∉ link.1) ∧
            i.model = [] ∧ i.serial = [])) ∧
        ∃ v r, filesRead tr = [(ascii "/sys/block/" ++ soleDev path ++ ascii "/device/vendor", v),
            (ascii "/sys/block/" ++ soleDev path ++ ascii "/device/rev", r)] ∧
          i.vendor = (if v.err = none then trimSpace v.data else []) ∧
          i.rev = (if r.err = none then trimSpace r.data else [])) := by
  rw [show byIdDir = idPath from rfl] at hnd ⊢
  intro names
  unfold getIdInfo
  rw [OutT.run_ask_bind]
  obtain ⟨d, hd⟩ : ∃ d, d = env hist (.readDir idPath) := ⟨_, rfl⟩
  have hn : names = d.names := by rw [hd]
  rw [← hd] at hnd ⊢
  rw [hn]
  cases hde : d.err with
  | some e =>
    refine ⟨_, _, _, rfl, by simp, by simp, ?_, by simp⟩
    exact List.nil_prefix
  | none =>
    simp only
    obtain ⟨res, tr, h1, h2, h3, h4, h5, h6⟩ := idEntries_run env d.names (hist ++ [(.readDir idPath, d)]) [] hnd (by simp)
    rw [OutT.run_bind_ret env _ h1]
    have hfr : filesRead tr = [] := by
      have hlen : (resolved tr).length = tr.length := h3
      have : ∀ t : Prog.Trace FReq FRep, (resolved t).length ≤ t.length ∧
          ((resolved t).length = t.length → filesRead t = []) := by
        intro t
        induction t with
        | nil => exact ⟨by simp [resolved], fun _ => rfl⟩
        | cons x t ih =>
          obtain ⟨q, r⟩ := x
          refine ⟨List.length_filterMap_le _ _, ?_⟩
          intro hh
          cases q with
          | evalSymlinks p =>
            apply ih.2
            have : (resolved t).length + 1 = t.length + 1 := hh
            omega
          | readFile p =>
            exfalso
            have : (resolved t).length = t.length + 1 := hh
            omega
          | _ =>
            first
            | (exfalso
               have : (resolved t).length = t.length + 1 := hh
               omega)
      exact (this tr).2 hlen
    cases res with
    | panic => exact absurd rfl h2
    | err e =>
      refine ⟨_, _, _, rfl, ?_, by simp, ?_, by simp⟩
      · have := h4.mp ⟨e, rfl⟩
        obtain ⟨x, hx, hxe⟩ := this
        simp only [reduceCtorEq, OutT.run_ret, List.append_nil, true_and, false_iff]
        intro hh
        exact hxe (hh x hx)
      · show (resolved (tr ++ [])).map _ <+: _
        rw [List.append_nil]
        exact h5
    | ok m =>
      obtain ⟨g1, g2⟩ := h6 m rfl
      simp only [List.nil_append] at g2
      simp only
      rw [OutT.run_ask_bind, OutT.run_ask_bind]
      have hr : ∀ rest : Prog.Trace FReq FRep, resolved rest = [] →
          resolved ((.readDir idPath, d) :: (tr ++ rest)) = resolved tr := by
        intro rest hh
        show resolved (tr ++ rest) = _
        have : resolved (tr ++ rest) = resolved tr ++ resolved rest := by simp [resolved, List.filterMap_append]
        rw [this, hh, List.append_nil]
      have hf : ∀ rest : Prog.Trace FReq FRep,
          filesRead ((.readDir idPath, d) :: (tr ++ rest)) = filesRead rest := by
        intro rest
        show filesRead (tr ++ rest) = _
        have : filesRead (tr ++ rest) = filesRead tr ++ filesRead rest := by simp [filesRead, List.filterMap_append]
        rw [this, hfr, List.nil_append]
      refine ⟨_, _, _, rfl, ?_, by simp, ?_, ?_⟩
      · simp only [true_and, true_iff]
        intro x hx
        rw [hr _ rfl] at hx
        by_cases hxe : x.2.err = none
        · exact hxe
        · obtain ⟨e, he⟩ := h4.mpr ⟨x, hx, hxe⟩
          cases he
      · rw [hr _ rfl]; exact h5
      · intro _
        rw [hr _ rfl]
        refine ⟨g1, ?_, _, _, hf _, rfl, rfl⟩
        have hz : m = ((considered d.names).zip ((resolved tr).map (·.2))).map (fun l => (l.1, l.2.data)) := by
          rw [g2, List.map_zip_eq_zipWith]
          rfl
        rcases idSearch_spec path (order m) with ⟨e, he, q1, q2⟩ | ⟨q1, q2⟩
        · left
          have he' := (ho m).mem_iff.mp he
          rw [hz] at he'
          simp only [List.mem_map] at he'
          obtain ⟨l, hl, rfl⟩ := he'
          exact ⟨l, hl, q1, q2⟩
        · right
          refine ⟨?_, by simp only; rw [q2], by simp only; rw [q2]⟩
          intro l hl hp
          exact q1 (l.1, l.2.data) ((ho m).mem_iff.mpr (by
            rw [hz]; exact List.mem_map_of_mem (f := fun l : Bytes × FRep => (l.1, l.2.data)) hl)) hp

/-- C90: if several links carry the drive, each of them can be the one reported, depending on the iteration order. -/
theorem id_info_order (path : Bytes) (m : List (Bytes × Bytes)) (e : Bytes × Bytes) (he : e ∈ m) (hp : e.2 = path)
    (model serial : Bytes) (hn : NamesDrive e.1 model serial) :
    ∃ m', m'.Perm m ∧ idSearch path m' = (model, serial) := by
  refine ⟨e :: m.erase e, (List.perm_cons_erase he).symm, ?_⟩
  obtain ⟨id, dev⟩ := e
  simp only at hp hn
  have hmem : 0x5f#8 ∈ id := by
    obtain ⟨pre, rfl, _⟩ := hn
    simp
  rcases idSearch_spec path [(id, dev)] with ⟨e, he, q1, q2⟩ | ⟨q1, q2⟩
  · simp only [List.mem_singleton] at he
    subst he
    have hu := namesDrive_unique q2 hn
    have heq : idSearch path ((id, dev) :: m.erase (id, dev)) = idSearch path [(id, dev)] := by
      unfold idSearch
      rw [if_pos hp.symm, if_pos hp.symm]
      have : ¬ lastIndex id 0x5f#8 = -1 := fun hh => (lastIndex_neg_iff id _).mp hh hmem
      simp only [if_neg this]
    rw [heq]
    exact Prod.ext hu.1 hu.2
  · exact absurd hmem (q1 (id, dev) (by simp) hp)

/-- The last component of a path. -/
theorem soleDev_spec (a b : Bytes) (h : 0x2f#8 ∉ b) : soleDev (a ++ 0x2f#8 :: b) = b ∧ soleDev b = b := by
  unfold soleDev
  rw [lastIndex_found a b _ h, lastIndex_none b _ h]
  refine ⟨?_, rfl⟩
  have : ((a.length : Int) + 1).toNat = a.length + 1 := by omega
  rw [this, ← List.drop_drop, List.drop_left]
  rfl

/-- The words are the encodings of white space. -/
theorem goSpace_iff (w : Bytes) : w ∈ goSpace ↔ ∃ c, White c ∧ utf8 c = w := by
  constructor
  · have : ∀ w ∈ goSpace, ∃ c ∈ [9, 10, 11, 12, 13, 32, 0x85, 0xa0, 0x1680, 0x2000, 0x2001, 0x2002, 0x2003, 0x2004, 0x2005, 0x2006, 0x2007, 0x2008,
        0x2009, 0x200a, 0x2028, 0x2029, 0x202f, 0x205f, 0x3000], utf8 c = w := by decide +kernel
    intro h
    obtain ⟨c, hc, hw⟩ := this w h
    refine ⟨c, ?_, hw⟩
    unfold White
    simp only [List.mem_cons, List.not_mem_nil, or_false] at hc
    omega
  · rintro ⟨c, hc, rfl⟩
    have : ∀ c ∈ [9, 10, 11, 12, 13, 32, 0x85, 0xa0, 0x1680, 0x2000, 0x2001, 0x2002, 0x2003, 0x2004, 0x2005, 0x2006, 0x2007, 0x2008,
        0x2009, 0x200a, 0x2028, 0x2029, 0x202f, 0x205f, 0x3000], utf8 c ∈ goSpace := by decide +kernel
    apply this
    unfold White at hc
    simp only [List.mem_cons, List.not_mem_nil, or_false]
    omega

/-- What `stripFront` removes, and what is left. -/
theorem stripFront_spec (words : List Bytes) (hw : ∀ w ∈ words, w ≠ []) (n : Nat) (s : Bytes) (hn : s.length ≤ n) :
    ∃ ws : List Bytes, (∀ w ∈ ws, w ∈ words) ∧ s = ws.flatten ++ stripFront words n s ∧ ∀ w ∈ words, ¬ w <+: stripFront words n s := by
  induction n generalizing s with
  | zero =>
    have : s = [] := List.eq_nil_of_length_eq_zero (by omega)
    subst this
    refine ⟨[], by simp, by simp [stripFront], ?_⟩
    intro w hm hp
    unfold stripFront at hp
    exact hw w hm (List.prefix_nil.mp hp)
  | succ n ih =>
    unfold stripFront
    cases hf : words.find? (fun w => w.isPrefixOf s) with
    | none =>
      refine ⟨[], by simp, by simp, ?_⟩
      intro w hm hp
      have := List.find?_eq_none.mp hf w hm
      exact this (List.isPrefixOf_iff_prefix.mpr hp)
    | some w =>
      have hm := List.mem_of_find?_eq_some hf
      have hp := List.find?_some hf
      obtain ⟨t, ht⟩ := List.isPrefixOf_iff_prefix.mp hp
      have hd : s.drop w.length = t := by rw [← ht, List.drop_left]
      have hl : 0 < w.length := List.length_pos_iff.mpr (hw w hm)
      obtain ⟨ws, h1, h2, h3⟩ := ih t (by have := congrArg List.length ht; simp at this; omega)
      refine ⟨w :: ws, ?_, ?_, ?_⟩
      · intro x hx
        rcases List.mem_cons.mp hx with rfl | hx
        · exact hm
        · exact h1 x hx
      · dsimp only
        rw [hd, List.flatten_cons, List.append_assoc, ← h2, ht]
      · dsimp only
        rw [hd]
        exact h3

/-- `trimSpace` removes white space at both ends and nothing else: the text is white space, what is returned, and white space; what is
returned neither begins nor ends with white space. -/
theorem trimSpace_spec (s : Bytes) :
    ∃ l r : List Nat, s = l.flatMap utf8 ++ trimSpace s ++ r.flatMap utf8 ∧ (∀ c ∈ l, White c) ∧ (∀ c ∈ r, White c) ∧
      ∀ c, White c → ¬ utf8 c <+: trimSpace s ∧ ¬ utf8 c <:+ trimSpace s := by
  have codes : ∀ ws : List Bytes, (∀ w ∈ ws, w ∈ goSpace) → ∃ l : List Nat, (∀ c ∈ l, White c) ∧ l.map utf8 = ws := by
    intro ws
    induction ws with
    | nil => exact fun _ => ⟨[], by simp, rfl⟩
    | cons w ws ih =>
      intro h
      obtain ⟨l, h1, h2⟩ := ih (fun x hx => h x (List.mem_cons_of_mem _ hx))
      obtain ⟨c, hc, hw⟩ := (goSpace_iff w).mp (h w List.mem_cons_self)
      refine ⟨c :: l, ?_, by rw [List.map_cons, h2, hw]⟩
      intro x hx
      rcases List.mem_cons.mp hx with rfl | hx
      · exact hc
      · exact h1 x hx
  have hne : ∀ w ∈ goSpace, w ≠ [] := by decide
  have hne' : ∀ w ∈ goSpace.map List.reverse, w ≠ [] := by decide
  obtain ⟨ws, a1, a2, a3⟩ := stripFront_spec goSpace hne s.length s (Nat.le_refl _)
  obtain ⟨t, ht⟩ : ∃ t, t = stripFront goSpace s.length s := ⟨_, rfl⟩
  rw [← ht] at a2 a3
  obtain ⟨us, b1, b2, b3⟩ := stripFront_spec _ hne' t.length t.reverse (by simp)
  have hr : trimSpace s = (stripFront (goSpace.map List.reverse) t.length t.reverse).reverse := by
    rw [ht]; rfl
  obtain ⟨l, hl1, hl2⟩ := codes ws a1
  obtain ⟨r, hr1, hr2⟩ := codes ((us.map List.reverse).reverse) (by
    intro w hw
    rw [List.mem_reverse, List.mem_map] at hw
    obtain ⟨u, hu, rfl⟩ := hw
    obtain ⟨v, hv, rfl⟩ := List.mem_map.mp (b1 u hu)
    rwa [List.reverse_reverse])
  have htr : t = trimSpace s ++ r.flatMap utf8 := by
    have := congrArg List.reverse b2
    rw [List.reverse_reverse, List.reverse_append, ← hr, List.reverse_flatten] at this
    rw [List.flatMap_def, hr2]
    exact this
  refine ⟨l, r, ?_, hl1, hr1, ?_⟩
  · rw [List.append_assoc, ← htr, List.flatMap_def, hl2]
    exact a2
  · intro c hc
    have hmem := (goSpace_iff _).mpr ⟨c, hc, rfl⟩
    constructor
    · intro hp
      apply a3 _ hmem
      rw [htr]
      exact hp.trans (List.prefix_append _ _)
    · intro hs
      apply b3 (utf8 c).reverse (List.mem_map_of_mem hmem)
      rw [hr] at hs
      have := List.reverse_prefix.mpr hs
      rwa [List.reverse_reverse] at this

/-- "ATA" between an ideographic space and a no-break space; a byte 85h that is no complete rune stays. -/
example : trimSpace ([0xe3#8, 0x80#8, 0x80#8] ++ ascii " ATA" ++ [0xc2#8, 0xa0#8, 0x0a#8]) = ascii "ATA" ∧
    trimSpace (ascii "ATA" ++ [0x85#8]) = ascii "ATA" ++ [0x85#8] := by decide

/-- A usual directory: a partition, a SCSI name and a dotted NVMe name are passed over, the ATA name is used. -/
example :
    let env : Prog.Env FReq FRep := fun _ q => match q with
      | .readDir _ => { names := [ascii "ata-ST1000_Z1D0", ascii "ata-ST1000_Z1D0-part1", ascii "scsi-1", ascii "nvme-eui.00"] }
      | .evalSymlinks p => if p = byIdDir ++ 0x2f#8 :: ascii "ata-ST1000_Z1D0" then { data := ascii "/dev/sda" } else {}
      | .readFile p => if p = ascii "/sys/block/sda/device/vendor" then { data := ascii "ATA     " } else { err := some (.errno 2) }
      | _ => {}
    (OutT.run env [] (getIdInfo id (ascii "/dev/sda"))).1 =
      .ret ({ model := ascii "ST1000", serial := ascii "Z1D0", vendor := ascii "ATA" }, none) ∧
    considered (env [] (.readDir byIdDir)).names = [ascii "ata-ST1000_Z1D0"] ∧ (env [] (.readDir byIdDir)).names.Nodup := by
  decide +kernel

end Dparm
