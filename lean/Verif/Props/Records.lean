import Verif.Spec.Records
import Verif.Lemmas.WinNvme
import Verif.Lemmas.Nvme
import Verif.Lemmas.WinTcg
import Verif.Lemmas.Command
/-!
# Properties: the records of the Linux drivers (C170)
-/
namespace Dparm
open Spec

/-! ## Assignments -/

theorem setFields_writes (fields : List Nat) (m : Bytes) (ws : List (Nat × Nat)) :
    setFields fields m ws = writes m (ws.map (fun w => ((goOffsets fields).getD w.1 0, leBytes (fields.getD w.1 0) w.2))) := by
  unfold setFields writes
  rw [List.foldl_map]
  rfl

/-- A number read where it was written, if no later assignment touches it. -/
theorem num_writes_at {p : Bytes} {N : Nat} (ws : List (Nat × Bytes)) (hp : p.length = N) (k j n v : Nat)
    (hfit : ∀ s ∈ shape ws, s.1 + s.2 ≤ N) (hk : ws[k]? = some (j, leBytes n v))
    (hdis : ∀ s ∈ (shape ws).drop (k + 1), s.1 + s.2 ≤ j ∨ j + n ≤ s.1) :
    num (writes p ws) j n = v % 256 ^ n := by
  unfold num
  rw [slice_writes_at ws hp k j n _ hfit hk (by unfold shape; rw [List.getElem?_map, hk]; simp) hdis, leVal_leBytes]

theorem num_writes_other {p : Bytes} {N : Nat} (ws : List (Nat × Bytes)) (hp : p.length = N) (j n : Nat)
    (hfit : ∀ s ∈ shape ws, s.1 + s.2 ≤ N) (hdis : ∀ s ∈ shape ws, s.1 + s.2 ≤ j ∨ j + n ≤ s.1) :
    num (writes p ws) j n = num p j n := by
  unfold num
  rw [slice_writes_other ws hp j n hfit hdis]

theorem ofNat_mod (w n v : Nat) (h : 256 ^ n = 2 ^ w) : BitVec.ofNat w (v % 256 ^ n) = BitVec.ofNat w v := by
  rw [h]
  apply BitVec.eq_of_toNat_eq
  simp

theorem ofNat_toNat_mod (w n : Nat) (b : BitVec w) (h : 256 ^ n = 2 ^ w) : BitVec.ofNat w (b.toNat % 256 ^ n) = b := by
  rw [ofNat_mod w n _ h]
  simp

theorem num_zeros (N j n : Nat) (h : j + n ≤ N) : num (zeros N) j n = 0 := by
  unfold num
  rw [slice_zeros _ _ _ h, leVal_zeros]

/-! ## NVMe -/

theorem adminBytes_read (c : NvmeCmd) (a : BitVec 64) : (adminBytes c a).length = 72 ∧ passthruAt (adminBytes c a) = adminRecord c a := by
  unfold adminBytes
  rw [setFields_writes]
  generalize hws : List.map _ _ = ws
  have hsh : shape ws = [(0, 1), (1, 1), (2, 2), (4, 4), (8, 4), (12, 4), (16, 8), (24, 8), (32, 4), (36, 4), (40, 4), (44, 4), (48, 4), (52, 4),
      (56, 4), (60, 4), (64, 4), (68, 4)] := by
    rw [← hws]
    simp only [shape, List.map_cons, List.map_nil, leBytes_length]
    decide
  have hsz : goSizeof passthruFields = 72 := by decide
  have l0 : (zeros (goSizeof passthruFields)).length = 72 := by rw [zeros_length, hsz]
  have hfit : ∀ s ∈ shape ws, s.1 + s.2 ≤ 72 := by rw [hsh]; decide
  refine ⟨writes_length ws l0 hfit, ?_⟩
  have fa : ∀ k j n v, ws[k]? = some (j, leBytes n v) → (∀ s ∈ (shape ws).drop (k + 1), s.1 + s.2 ≤ j ∨ j + n ≤ s.1) →
      num (writes (zeros (goSizeof passthruFields)) ws) j n = v % 256 ^ n := fun k j n v h1 h2 => num_writes_at ws l0 k j n v hfit h1 h2
  unfold passthruAt adminRecord
  rw [fa 0 0 1 _ (by rw [← hws]; rfl) (by rw [hsh]; decide), fa 1 1 1 _ (by rw [← hws]; rfl) (by rw [hsh]; decide),
    fa 2 2 2 _ (by rw [← hws]; rfl) (by rw [hsh]; decide), fa 3 4 4 _ (by rw [← hws]; rfl) (by rw [hsh]; decide),
    fa 4 8 4 _ (by rw [← hws]; rfl) (by rw [hsh]; decide), fa 5 12 4 _ (by rw [← hws]; rfl) (by rw [hsh]; decide),
    fa 6 16 8 _ (by rw [← hws]; rfl) (by rw [hsh]; decide), fa 7 24 8 _ (by rw [← hws]; rfl) (by rw [hsh]; decide),
    fa 8 32 4 _ (by rw [← hws]; rfl) (by rw [hsh]; decide), fa 9 36 4 _ (by rw [← hws]; rfl) (by rw [hsh]; decide),
    fa 10 40 4 _ (by rw [← hws]; rfl) (by rw [hsh]; decide), fa 11 44 4 _ (by rw [← hws]; rfl) (by rw [hsh]; decide),
    fa 12 48 4 _ (by rw [← hws]; rfl) (by rw [hsh]; decide), fa 13 52 4 _ (by rw [← hws]; rfl) (by rw [hsh]; decide),
    fa 14 56 4 _ (by rw [← hws]; rfl) (by rw [hsh]; decide), fa 15 60 4 _ (by rw [← hws]; rfl) (by rw [hsh]; decide),
    fa 16 64 4 _ (by rw [← hws]; rfl) (by rw [hsh]; decide), fa 17 68 4 _ (by rw [← hws]; rfl) (by rw [hsh]; decide)]
  simp only [ofNat_toNat_mod 8 1 _ (by decide), ofNat_toNat_mod 16 2 _ (by decide), ofNat_toNat_mod 32 4 _ (by decide),
    ofNat_toNat_mod 64 8 _ (by decide)]

theorem ioPassthruBytes_read (c : NvmeCmd) (a : BitVec 64) :
    (ioPassthruBytes c a).length = 72 ∧ passthruAt (ioPassthruBytes c a) = ioRecord c a := by
  unfold ioPassthruBytes
  rw [setFields_writes]
  generalize hws : List.map _ _ = ws
  have hsh : shape ws = [(0, 1), (1, 1), (2, 2), (4, 4), (8, 4), (12, 4), (16, 8), (24, 8), (32, 4), (40, 4), (44, 4), (48, 4), (52, 4),
      (56, 4), (60, 4), (64, 4), (68, 4)] := by
    rw [← hws]
    simp only [shape, List.map_cons, List.map_nil, leBytes_length]
    decide
  have hsz : goSizeof passthruFields = 72 := by decide
  have l0 : (zeros (goSizeof passthruFields)).length = 72 := by rw [zeros_length, hsz]
  have hfit : ∀ s ∈ shape ws, s.1 + s.2 ≤ 72 := by rw [hsh]; decide
  refine ⟨writes_length ws l0 hfit, ?_⟩
  have fa : ∀ k j n v, ws[k]? = some (j, leBytes n v) → (∀ s ∈ (shape ws).drop (k + 1), s.1 + s.2 ≤ j ∨ j + n ≤ s.1) →
      num (writes (zeros (goSizeof passthruFields)) ws) j n = v % 256 ^ n := fun k j n v h1 h2 => num_writes_at ws l0 k j n v hfit h1 h2
  have fo : num (writes (zeros (goSizeof passthruFields)) ws) 36 4 = 0 := by
    rw [num_writes_other ws l0 36 4 hfit (by rw [hsh]; decide), hsz, num_zeros _ _ _ (by decide)]
  unfold passthruAt ioRecord
  rw [fa 0 0 1 _ (by rw [← hws]; rfl) (by rw [hsh]; decide), fa 1 1 1 _ (by rw [← hws]; rfl) (by rw [hsh]; decide),
    fa 2 2 2 _ (by rw [← hws]; rfl) (by rw [hsh]; decide), fa 3 4 4 _ (by rw [← hws]; rfl) (by rw [hsh]; decide),
    fa 4 8 4 _ (by rw [← hws]; rfl) (by rw [hsh]; decide), fa 5 12 4 _ (by rw [← hws]; rfl) (by rw [hsh]; decide),
    fa 6 16 8 _ (by rw [← hws]; rfl) (by rw [hsh]; decide), fa 7 24 8 _ (by rw [← hws]; rfl) (by rw [hsh]; decide),
    fa 8 32 4 _ (by rw [← hws]; rfl) (by rw [hsh]; decide), fo,
    fa 9 40 4 _ (by rw [← hws]; rfl) (by rw [hsh]; decide), fa 10 44 4 _ (by rw [← hws]; rfl) (by rw [hsh]; decide),
    fa 11 48 4 _ (by rw [← hws]; rfl) (by rw [hsh]; decide), fa 12 52 4 _ (by rw [← hws]; rfl) (by rw [hsh]; decide),
    fa 13 56 4 _ (by rw [← hws]; rfl) (by rw [hsh]; decide), fa 14 60 4 _ (by rw [← hws]; rfl) (by rw [hsh]; decide),
    fa 15 64 4 _ (by rw [← hws]; rfl) (by rw [hsh]; decide), fa 16 68 4 _ (by rw [← hws]; rfl) (by rw [hsh]; decide)]
  simp only [ofNat_toNat_mod 8 1 _ (by decide), ofNat_toNat_mod 16 2 _ (by decide), ofNat_toNat_mod 32 4 _ (by decide),
    ofNat_toNat_mod 64 8 _ (by decide)]
  rfl

theorem userIoBytes_read (io : UserIo) : (userIoBytes io).length = 48 ∧ userIoAt (userIoBytes io) = io := by
  unfold userIoBytes
  rw [setFields_writes]
  generalize hws : List.map _ _ = ws
  have hsh : shape ws = [(0, 1), (1, 1), (2, 2), (4, 2), (6, 2), (8, 8), (16, 8), (24, 8), (32, 4), (36, 4), (40, 2), (42, 2)] := by
    rw [← hws]
    simp only [shape, List.map_cons, List.map_nil, leBytes_length]
    decide
  have hsz : goSizeof userIoFields = 48 := by decide
  have l0 : (zeros (goSizeof userIoFields)).length = 48 := by rw [zeros_length, hsz]
  have hfit : ∀ s ∈ shape ws, s.1 + s.2 ≤ 48 := by rw [hsh]; decide
  refine ⟨writes_length ws l0 hfit, ?_⟩
  have fa : ∀ k j n v, ws[k]? = some (j, leBytes n v) → (∀ s ∈ (shape ws).drop (k + 1), s.1 + s.2 ≤ j ∨ j + n ≤ s.1) →
      num (writes (zeros (goSizeof userIoFields)) ws) j n = v % 256 ^ n := fun k j n v h1 h2 => num_writes_at ws l0 k j n v hfit h1 h2
  unfold userIoAt
  rw [fa 0 0 1 _ (by rw [← hws]; rfl) (by rw [hsh]; decide), fa 1 1 1 _ (by rw [← hws]; rfl) (by rw [hsh]; decide),
    fa 2 2 2 _ (by rw [← hws]; rfl) (by rw [hsh]; decide), fa 3 4 2 _ (by rw [← hws]; rfl) (by rw [hsh]; decide),
    fa 4 6 2 _ (by rw [← hws]; rfl) (by rw [hsh]; decide), fa 5 8 8 _ (by rw [← hws]; rfl) (by rw [hsh]; decide),
    fa 6 16 8 _ (by rw [← hws]; rfl) (by rw [hsh]; decide), fa 7 24 8 _ (by rw [← hws]; rfl) (by rw [hsh]; decide),
    fa 8 32 4 _ (by rw [← hws]; rfl) (by rw [hsh]; decide), fa 9 36 4 _ (by rw [← hws]; rfl) (by rw [hsh]; decide),
    fa 10 40 2 _ (by rw [← hws]; rfl) (by rw [hsh]; decide), fa 11 42 2 _ (by rw [← hws]; rfl) (by rw [hsh]; decide)]
  simp only [ofNat_toNat_mod 8 1 _ (by decide), ofNat_toNat_mod 16 2 _ (by decide), ofNat_toNat_mod 32 4 _ (by decide),
    ofNat_toNat_mod 64 8 _ (by decide)]

/-- **C170.** The NVMe commands on bytes: what the kernel reads from the records the library builds, by the number of the ioctl and the C
definition of its record, are the commands of C64 and C65 — the caller's fields. -/
theorem nvme_records (bufAddr : BitVec 64) (c : NvmeCmd) (io : UserIo) :
    OutT.interp kernelNv (rawAdmin bufAddr c) = nvAdmin bufAddr c ∧
    OutT.interp kernelNv (rawIoPassthru bufAddr c) = nvIoPassthru bufAddr c ∧
    OutT.interp kernelNv (rawIo io) = nvIo io := by
  refine ⟨?_, ?_, ?_⟩
  · unfold rawAdmin nvAdmin
    rw [interp_ask_then]
    have : kernelNv { op := NVME_IOCTL_ADMIN_CMD, record := adminBytes c bufAddr, buf := c.dataBuffer } =
        OutT.ask (.cmd NVME_IOCTL_ADMIN_CMD (adminRecord c bufAddr) c.dataBuffer) := by
      unfold kernelNv
      dsimp only
      rw [if_pos (by rw [(adminBytes_read c bufAddr).1]; decide), if_neg (by decide), (adminBytes_read c bufAddr).2]
    rw [this]
    rfl
  · unfold rawIoPassthru nvIoPassthru
    cases passthruDataAddr c bufAddr with
    | panic => rfl
    | ret a =>
      have : kernelNv { op := NVME_IOCTL_IO_CMD, record := ioPassthruBytes c a, buf := c.dataBuffer } =
          OutT.ask (.cmd NVME_IOCTL_IO_CMD (ioRecord c a) c.dataBuffer) := by
        unfold kernelNv
        dsimp only
        rw [if_pos (by rw [(ioPassthruBytes_read c a).1]; decide), if_neg (by decide), (ioPassthruBytes_read c a).2]
      change OutT.interp kernelNv (OutT.ask { op := NVME_IOCTL_IO_CMD, record := ioPassthruBytes c a, buf := c.dataBuffer } >>= fun r =>
          OutT.ret (ioctlErr r.ret r.errno, r.stored c (ioRecord c a)) : OutT RawNv NvRep (Option GoErr × Option Bytes)) =
        (OutT.ask (.cmd NVME_IOCTL_IO_CMD (ioRecord c a) c.dataBuffer) >>= fun r =>
          OutT.ret (ioctlErr r.ret r.errno, r.stored c (ioRecord c a)) : NvM (Option GoErr × Option Bytes))
      rw [interp_ask_then, this]
      rfl
  · unfold rawIo nvIo
    rw [interp_ask_then]
    have : kernelNv { op := NVME_IOCTL_SUBMIT_IO, record := userIoBytes io } = OutT.ask (.io NVME_IOCTL_SUBMIT_IO io) := by
      unfold kernelNv
      dsimp only
      rw [if_pos (by rw [(userIoBytes_read io).1]; decide), if_pos (by decide), (userIoBytes_read io).2]
    rw [this]
    rfl

/-! ## SCSI generic -/

/-- A record whose reserved input fields are clear. -/
def QuietSg (m : Bytes) : Prop := m.length = 128 ∧ num m 10 2 = 0 ∧ num m 44 4 = 0

theorem quiet_zeros : QuietSg (zeros sgRecordSize) := by
  have : sgRecordSize = 128 := by decide
  rw [this]
  exact ⟨zeros_length _, num_zeros _ _ _ (by decide), num_zeros _ _ _ (by decide)⟩

theorem sg_offsets : sgSenseOffset = 92 ∧ (goOffsets sgFields).getD 13 0 = 64 := by decide

theorem sgBack_zeros : sgBack (zeros sgRecordSize) = {} := by
  decide +kernel

/-- What the kernel writes into the record. -/
theorem sg_returned (m : Bytes) (hm : QuietSg m) (st : Byte) (out sense : Bytes) (ho : out.length = 19) (hs : sense.length ≤ 32) :
    QuietSg (copyAt (copyAt m 64 (st :: out)) 92 sense) ∧
    (∀ j n, j + n ≤ 64 → num (copyAt (copyAt m 64 (st :: out)) 92 sense) j n = num m j n) ∧
    sgBack (copyAt (copyAt m 64 (st :: out)) 92 sense) = { status := st, sense := storeInto (sgBack m).sense sense } := by
  obtain ⟨hl, h1, h2⟩ := hm
  have ho' : (st :: out).length = 20 := by simp [ho]
  have l1 : (copyAt m 64 (st :: out)).length = 128 := put_length hl (by omega)
  have l2 : (copyAt (copyAt m 64 (st :: out)) 92 sense).length = 128 := put_length l1 (by omega)
  have other : ∀ j n, j + n ≤ 64 → slice (copyAt (copyAt m 64 (st :: out)) 92 sense) j n = slice m j n := by
    intro j n h
    rw [put_other l1 (by omega) (.inl (by omega)), put_other hl (by omega) (.inl h)]
  refine ⟨⟨l2, ?_, ?_⟩, fun j n h => by unfold num; rw [other j n h], ?_⟩
  · unfold num; rw [other _ _ (by decide)]; exact h1
  · unfold num; rw [other _ _ (by decide)]; exact h2
  · unfold sgBack
    rw [sg_offsets.1, sg_offsets.2]
    congr 1
    · rw [getD_eq_slice, put_other l1 (by omega) (.inl (by decide))]
      have h20 : slice (copyAt m 64 (st :: out)) 64 20 = st :: out := put_same hl ho'.symm (by omega)
      have : slice (copyAt m 64 (st :: out)) 64 1 = slice (slice (copyAt m 64 (st :: out)) 64 20) 0 1 := by
        rw [slice_slice _ _ _ _ _ (by decide)]
      rw [this, h20]
      rfl
    · have e := slice_copyAt_inside (copyAt m 64 (st :: out)) 92 32 0 sense (by omega) (by omega)
      rw [Nat.add_zero] at e
      rw [e, put_other hl (by omega) (.inr (by omega))]
      unfold storeInto
      rw [slice_length _ _ _ (by omega), List.take_of_length_le hs]

/-- Round of a taskfile command. -/
theorem taskRound_read (p : SgPlaces) (rw' dma : Bool) (tf : Tf) (data : Option Bytes) (secs dx : Nat) (m : Bytes) (hm : QuietSg m) :
    QuietSg (sgTaskRound p rw' dma tf data secs dx m) ∧
    sgBack (sgTaskRound p rw' dma tf data secs dx m) = sgBack m ∧
    sgHeaderAt (sgTaskRound p rw' dma tf data secs dx m) =
      { interfaceId := 83, direction := sgDir data.isSome rw', cmdLen := (sgTaskCdb tf data.isSome rw' dma).length, mxSbLen := 32, iovecCount := 0,
        dxferLen := (data.getD []).length % 2 ^ 32, dxferp := BitVec.ofNat 64 dx, cmdp := BitVec.ofNat 64 p.cmd,
        sbp := BitVec.ofNat 64 (p.record + 92), timeout := BitVec.ofNat 32 secs, flags := 0, packId := (tfToLba tf).setWidth 32,
        usrPtr := num m 56 8 } := by
  obtain ⟨l0, h1, h2⟩ := hm
  have hcdb : (sgTaskCdb tf data.isSome rw' dma).length % 256 ^ 1 = (sgTaskCdb tf data.isSome rw' dma).length := by
    unfold sgTaskCdb
    split <;> rfl
  have hdir : (BitVec.ofNat 32 ((BitVec.ofInt 32 (sgDir data.isSome rw')).toNat % 256 ^ 4)).toInt = sgDir data.isSome rw' := by
    cases data.isSome <;> cases rw' <;> decide
  unfold sgTaskRound
  rw [setFields_writes]
  generalize hws : List.map _ _ = ws
  have hsh : shape ws = [(0, 4), (40, 4), (4, 4), (16, 8), (9, 1), (32, 8), (48, 4), (8, 1), (24, 8), (12, 4), (16, 8)] := by
    rw [← hws]
    simp only [shape, List.map_cons, List.map_nil, leBytes_length]
    decide
  have hfit : ∀ s ∈ shape ws, s.1 + s.2 ≤ 128 := by rw [hsh]; decide
  have fa : ∀ k j n v, ws[k]? = some (j, leBytes n v) → (∀ s ∈ (shape ws).drop (k + 1), s.1 + s.2 ≤ j ∨ j + n ≤ s.1) →
      num (writes m ws) j n = v % 256 ^ n := fun k j n v h1 h2 => num_writes_at ws l0 k j n v hfit h1 h2
  have fo : ∀ j n, (∀ s ∈ shape ws, s.1 + s.2 ≤ j ∨ j + n ≤ s.1) → num (writes m ws) j n = num m j n :=
    fun j n h => num_writes_other ws l0 j n hfit h
  have f10 := fo 10 2 (by rw [hsh]; decide)
  have f44 := fo 44 4 (by rw [hsh]; decide)
  refine ⟨⟨writes_length ws l0 hfit, by rw [f10, h1], by rw [f44, h2]⟩, ?_, ?_⟩
  · unfold sgBack
    rw [sg_offsets.1, sg_offsets.2, slice_writes_other ws l0 92 32 hfit (by rw [hsh]; decide)]
    congr 1
    rw [getD_eq_slice, slice_writes_other ws l0 64 1 hfit (by rw [hsh]; decide), ← getD_eq_slice]
  · unfold sgHeaderAt
    rw [fa 0 0 4 _ (by rw [← hws]; rfl) (by rw [hsh]; decide), fa 1 40 4 _ (by rw [← hws]; rfl) (by rw [hsh]; decide),
      fa 2 4 4 _ (by rw [← hws]; rfl) (by rw [hsh]; decide), fa 4 9 1 _ (by rw [← hws]; rfl) (by rw [hsh]; decide),
      fa 5 32 8 _ (by rw [← hws]; rfl) (by rw [hsh]; decide), fa 6 48 4 _ (by rw [← hws]; rfl) (by rw [hsh]; decide),
      fa 7 8 1 _ (by rw [← hws]; rfl) (by rw [hsh]; decide), fa 8 24 8 _ (by rw [← hws]; rfl) (by rw [hsh]; decide),
      fa 9 12 4 _ (by rw [← hws]; rfl) (by rw [hsh]; decide), fa 10 16 8 _ (by rw [← hws]; rfl) (by rw [hsh]; decide), f10, f44,
      fo 56 8 (by rw [hsh]; decide), h1, h2, hcdb, hdir, sg_offsets.1]
    simp only [ofNat_mod 32 4 _ (by decide), ofNat_mod 64 8 _ (by decide)]
    rfl

/-- Round of a security command. -/
theorem secRound_read (p : SgPlaces) (rw' : Bool) (protocol : Byte) (comId : BitVec 16) (data : Bytes) (secs dx : Nat) (m : Bytes)
    (hm : QuietSg m) :
    QuietSg (sgSecRound p rw' protocol comId data secs dx m) ∧
    sgBack (sgSecRound p rw' protocol comId data secs dx m) = sgBack m ∧
    sgHeaderAt (sgSecRound p rw' protocol comId data secs dx m) =
      { interfaceId := 83, direction := if rw' then -2 else -3, cmdLen := 12, mxSbLen := num m 9 1, iovecCount := 0,
        dxferLen := data.length % 2 ^ 32, dxferp := BitVec.ofNat 64 dx, cmdp := BitVec.ofNat 64 p.cmd,
        sbp := BitVec.ofNat 64 (p.record + 92), timeout := BitVec.ofNat 32 secs * 1000#32, flags := 0, packId := BitVec.ofNat 32 (num m 48 4),
        usrPtr := num m 56 8 } := by
  obtain ⟨l0, h1, h2⟩ := hm
  have hcdb : (sgSecCdb rw' protocol comId data.length).length % 256 ^ 1 = 12 := by
    unfold sgSecCdb
    simp
  have hdir : (BitVec.ofNat 32 ((BitVec.ofInt 32 (if rw' then -2 else -3)).toNat % 256 ^ 4)).toInt = if rw' then -2 else -3 := by
    cases rw' <;> decide
  have htime : BitVec.ofNat 32 (secs % 2 ^ 32 * 1000) = BitVec.ofNat 32 secs * 1000#32 := by
    apply BitVec.eq_of_toNat_eq
    simp [BitVec.toNat_mul]
  unfold sgSecRound
  rw [setFields_writes]
  generalize hws : List.map _ _ = ws
  have hsh : shape ws = [(0, 4), (40, 4), (4, 4), (67, 1), (32, 8), (8, 1), (12, 4), (24, 8), (16, 8)] := by
    rw [← hws]
    simp only [shape, List.map_cons, List.map_nil, leBytes_length]
    decide
  have hfit : ∀ s ∈ shape ws, s.1 + s.2 ≤ 128 := by rw [hsh]; decide
  have fa : ∀ k j n v, ws[k]? = some (j, leBytes n v) → (∀ s ∈ (shape ws).drop (k + 1), s.1 + s.2 ≤ j ∨ j + n ≤ s.1) →
      num (writes m ws) j n = v % 256 ^ n := fun k j n v h1 h2 => num_writes_at ws l0 k j n v hfit h1 h2
  have fo : ∀ j n, (∀ s ∈ shape ws, s.1 + s.2 ≤ j ∨ j + n ≤ s.1) → num (writes m ws) j n = num m j n :=
    fun j n h => num_writes_other ws l0 j n hfit h
  have f10 := fo 10 2 (by rw [hsh]; decide)
  have f44 := fo 44 4 (by rw [hsh]; decide)
  refine ⟨⟨writes_length ws l0 hfit, by rw [f10, h1], by rw [f44, h2]⟩, ?_, ?_⟩
  · unfold sgBack
    rw [sg_offsets.1, sg_offsets.2, slice_writes_other ws l0 92 32 hfit (by rw [hsh]; decide)]
    congr 1
    rw [getD_eq_slice, slice_writes_other ws l0 64 1 hfit (by rw [hsh]; decide), ← getD_eq_slice]
  · unfold sgHeaderAt
    rw [fa 0 0 4 _ (by rw [← hws]; rfl) (by rw [hsh]; decide), fa 1 40 4 _ (by rw [← hws]; rfl) (by rw [hsh]; decide),
      fa 2 4 4 _ (by rw [← hws]; rfl) (by rw [hsh]; decide),
      fa 4 32 8 _ (by rw [← hws]; rfl) (by rw [hsh]; decide), fo 48 4 (by rw [hsh]; decide),
      fa 5 8 1 _ (by rw [← hws]; rfl) (by rw [hsh]; decide), fa 7 24 8 _ (by rw [← hws]; rfl) (by rw [hsh]; decide),
      fa 6 12 4 _ (by rw [← hws]; rfl) (by rw [hsh]; decide), fa 8 16 8 _ (by rw [← hws]; rfl) (by rw [hsh]; decide), f10, f44,
      fo 56 8 (by rw [hsh]; decide), fo 9 1 (by rw [hsh]; decide), h1, h2, hcdb, hdir, sg_offsets.1]
    simp only [ofNat_mod 32 4 _ (by decide), ofNat_mod 64 8 _ (by decide), htime]

/-- The memory at `Dxferp` after the command. -/
def memAfter (k : SgReq) (a : SgRep) : Dxfer → Bytes
  | .mem _ c => k.kernelStore c a
  | _ => []

/-- One SG_IO as the kernel performs it, from what it reads in the header. -/
theorem kernelSg_runs (p : SgPlaces) (rest : SgReq → SgRep → Bytes) (m cmd : Bytes) (x : Dxfer) (hm : QuietSg m) (k : SgReq)
    (hk : (sgHeaderAt m).interfaceId = 83 ∧ (sgHeaderAt m).direction = k.dir ∧ (sgHeaderAt m).cmdLen = k.cdb.length ∧
      (sgHeaderAt m).mxSbLen = k.mxSbLen ∧ (sgHeaderAt m).dxferLen = k.dxferLen ∧ (sgHeaderAt m).dxferp = BitVec.ofNat 64 (x.addr p) ∧
      (sgHeaderAt m).cmdp = BitVec.ofNat 64 p.cmd ∧ (sgHeaderAt m).sbp = BitVec.ofNat 64 (p.record + 92) ∧ (sgHeaderAt m).timeout = k.timeout ∧
      (sgHeaderAt m).packId = k.packId) (hcmd : cmd = k.cdb) (hx : x = k.dxferp) :
    kernelSg p rest { op := 0x2285, record := m, cmd := cmd, mem := x } = (do
      let a ← OutT.ask (.sgIo k)
      OutT.ret { err := a.err, record := copyAt (copyAt m 64 (a.status :: rest k a)) 92 (a.sense.take k.mxSbLen),
                 mem := memAfter k a x } : SgM RawSgRep) := by
  obtain ⟨h1, h2, h3, h4, h5, h6, h7, h8, h9, h10⟩ := hk
  unfold kernelSg
  dsimp only
  rw [if_pos ⟨rfl, by rw [hm.1]; decide, h1, hm.2.1, hm.2.2⟩]
  have hoff : ((sgHeaderAt m).sbp - BitVec.ofNat 64 p.record).toNat = 92 := by
    rw [h8]
    have : BitVec.ofNat 64 (p.record + 92) - BitVec.ofNat 64 p.record = 92#64 := by
      rw [BitVec.ofNat_add, BitVec.add_comm, BitVec.add_sub_cancel]
    rw [this]
    rfl
  have hq : ({
      dir := (sgHeaderAt m).direction, cdb := (if (sgHeaderAt m).cmdp = BitVec.ofNat 64 p.cmd then cmd.take (sgHeaderAt m).cmdLen else []),
      mxSbLen := (sgHeaderAt m).mxSbLen, dxferLen := (sgHeaderAt m).dxferLen,
      dxferp := (if (sgHeaderAt m).dxferp = BitVec.ofNat 64 (x.addr p) then x else Dxfer.raw (sgHeaderAt m).dxferp.toNat),
      timeout := (sgHeaderAt m).timeout, packId := (sgHeaderAt m).packId } : SgReq) = k := by
    rw [if_pos h7, if_pos h6, h2, h3, h4, h5, h9, h10, hcmd, hx, List.take_of_length_le (Nat.le_refl _)]
  rw [hq, hoff, h4, h2, h5]
  cases x <;> simp only [memAfter, SgReq.kernelStore, storeInto_delivered]

/-- The memory handed over is the caller's, or that of the aligned copy. -/
theorem sgFirstMem_cases (rw' : Bool) (d : Bytes) (addr base : Nat) (x : Dxfer) (ab : Option ABuf)
    (h : sgFirstMem rw' d addr base = .ret (x, ab)) :
    (x = .mem addr d ∧ ab = none) ∨ ∃ b, x = .mem b.pointer b.buf ∧ ab = some b := by
  unfold sgFirstMem at h
  split at h
  · cases h
  · split at h
    · injection h with h
      injection h with h1 h2
      exact .inl ⟨h1.symm, h2.symm⟩
    · dsimp only at h
      split at h
      · generalize ABuf.write _ d = w at h
        cases w with
        | panic => cases h
        | ret v =>
          obtain ⟨b, n, e⟩ := v
          injection h with h
          injection h with h1 h2
          exact .inr ⟨b, h1.symm, h2.symm⟩
      · injection h with h
        injection h with h1 h2
        exact .inr ⟨_, h1.symm, h2.symm⟩

/-- The caller's buffer after the first round. -/
theorem rawAfterFirst_eq (rw' : Bool) (d : Bytes) (addr base : Nat) (x : Dxfer) (ab : Option ABuf)
    (h : sgFirstMem rw' d addr base = .ret (x, ab)) (k : SgReq) (a : SgRep) (m : Bytes) :
    rawAfterFirst rw' d ab { err := a.err, record := m, mem := memAfter k a x } = sgAfterFirst rw' d ab k a := by
  rcases sgFirstMem_cases rw' d addr base x ab h with ⟨h1, h2⟩ | ⟨b, h1, h2⟩ <;> subst h1 <;> subst h2 <;> rfl

/-- The first round of a taskfile command finds what `sgTaskReq` says. -/
theorem task_round (p : SgPlaces) (rest : SgReq → SgRep → Bytes) (rw' dma : Bool) (tf : Tf) (data : Option Bytes) (secs : Nat) (x : Dxfer)
    (m : Bytes) (hm : QuietSg m) :
    kernelSg p rest { op := 0x2285, record := sgTaskRound p rw' dma tf data secs (x.addr p) m, cmd := sgTaskCdb tf data.isSome rw' dma, mem := x } = (do
      let a ← OutT.ask (.sgIo (sgTaskReq rw' dma tf data secs x))
      OutT.ret { err := a.err,
                 record := copyAt (copyAt (sgTaskRound p rw' dma tf data secs (x.addr p) m) 64 (a.status :: rest (sgTaskReq rw' dma tf data secs x) a))
                   92 (a.sense.take 32),
                 mem := memAfter (sgTaskReq rw' dma tf data secs x) a x } : SgM RawSgRep) := by
  obtain ⟨h1, _, h3⟩ := taskRound_read p rw' dma tf data secs (x.addr p) m hm
  exact kernelSg_runs p rest _ _ x h1 (sgTaskReq rw' dma tf data secs x)
    (by
      rw [h3]
      refine ⟨rfl, rfl, rfl, rfl, ?_, rfl, rfl, rfl, rfl, rfl⟩
      cases data <;> simp [sgTaskReq]) rfl rfl

theorem ask_ret_cong {Q R α β : Type} (q : Q) (g : R → α) (k : α → OutT Q R β) (k' : R → OutT Q R β) (h : ∀ r, k (g r) = k' r) :
    ((OutT.ask q >>= fun r => OutT.ret (g r) : OutT Q R α) >>= k : OutT Q R β) = (OutT.ask q >>= k' : OutT Q R β) := by
  have : k' = fun r => k (g r) := funext fun r => (h r).symm
  rw [this]
  rfl

/-- **C170.** `doTaskFileCmd` on bytes: what the kernel reads from the record and the CDB, by the C definition of its header, and what the
library reads back from the record, is the command of C132 — for any places of record, CDB and buffers, and whatever the kernel writes into
the other output fields. -/
theorem sg_task_records (p : SgPlaces) (rest : SgReq → SgRep → Bytes) (hrest : ∀ k a, (rest k a).length = 19) (rw' dma : Bool) (tf : Tf)
    (data : Option Bytes) (addr base secs : Nat) :
    OutT.interp (kernelSg p rest) (rawTaskFile p rw' dma tf data addr base secs) = sgTaskFile rw' dma tf data addr base secs := by
  unfold rawTaskFile sgTaskFile
  dsimp only
  generalize sgZeroOut rw' data = data
  cases hmem : sgTaskMem rw' data addr base with
  | panic => rfl
  | ret v =>
    obtain ⟨x, ab⟩ := v
    have hround := task_round p rest rw' dma tf data secs x _ quiet_zeros
    refine (interp_ask_then (kernelSg p rest) _ _).trans ?_
    rw [hround]
    refine ask_ret_cong _ _ _ _ (fun a => ?_)
    have hret := sg_returned _ (taskRound_read p rw' dma tf data secs (x.addr p) _ quiet_zeros).1 a.status
      (rest (sgTaskReq rw' dma tf data secs x) a) (a.sense.take 32) (hrest _ _) (List.length_take_le _ _)
    rw [(taskRound_read p rw' dma tf data secs (x.addr p) _ quiet_zeros).2.1, sgBack_zeros] at hret
    dsimp only
    generalize copyAt (copyAt (sgTaskRound p rw' dma tf data secs (x.addr p) _) _ _) _ _ = m1 at hret ⊢
    obtain ⟨hq1, -, hb1⟩ := hret
    have haft : rawTaskAfter rw' data ab { err := a.err, record := m1, mem := memAfter (sgTaskReq rw' dma tf data secs x) a x } =
        sgTaskAfter rw' data ab (sgTaskReq rw' dma tf data secs x) a := by
      cases data with
      | none => rfl
      | some d =>
        unfold rawTaskAfter sgTaskAfter
        dsimp only
        rw [rawAfterFirst_eq rw' d addr base x ab hmem]
    rw [haft, hb1]
    generalize sgTaskAfter rw' data ab _ a = after
    cases after with
    | panic => rfl
    | ret d2 =>
      cases a.err with
      | none => rfl
      | some e =>
        refine (interp_ask_then (kernelSg p rest) _ _).trans ?_
        have hround2 := task_round p rest rw' dma tf d2 secs (.raw sgRecordSize) m1 hq1
        refine (congrArg (fun z : SgM RawSgRep => z >>= _) hround2).trans ?_
        refine ask_ret_cong _ _ _ _ (fun b => ?_)
        have hb2 := (taskRound_read p rw' dma tf d2 secs sgRecordSize m1 hq1)
        have hret2 := sg_returned _ hb2.1 b.status
          (rest (sgTaskReq rw' dma tf d2 secs (.raw sgRecordSize)) b) (b.sense.take 32) (hrest _ _) (List.length_take_le _ _)
        dsimp only [Dxfer.addr]
        cases b.err with
        | none =>
          dsimp only
          rw [hb2.2.1, hb1]
          rfl
        | some e2 =>
          dsimp only
          rw [hret2.2.2, hb2.2.1, hb1]
          rfl

/-- A round of a security command finds what `sgSecReq` says. -/
theorem sec_round (p : SgPlaces) (rest : SgReq → SgRep → Bytes) (rw' : Bool) (protocol : Byte) (comId : BitVec 16) (data : Bytes) (secs : Nat)
    (x : Dxfer) (m : Bytes) (hm : QuietSg m) (h9 : num m 9 1 = 0) (h48 : num m 48 4 = 0) :
    kernelSg p rest { op := 0x2285, record := sgSecRound p rw' protocol comId data secs (x.addr p) m,
                      cmd := sgSecCdb rw' protocol comId data.length, mem := x } = (do
      let a ← OutT.ask (.sgIo (sgSecReq rw' protocol comId data secs x))
      OutT.ret { err := a.err,
                 record := copyAt (copyAt (sgSecRound p rw' protocol comId data secs (x.addr p) m) 64
                   (a.status :: rest (sgSecReq rw' protocol comId data secs x) a)) 92 (a.sense.take 0),
                 mem := memAfter (sgSecReq rw' protocol comId data secs x) a x } : SgM RawSgRep) := by
  obtain ⟨h1, _, h3⟩ := secRound_read p rw' protocol comId data secs (x.addr p) m hm
  exact kernelSg_runs p rest _ _ x h1 (sgSecReq rw' protocol comId data secs x)
    (by
      rw [h3]
      refine ⟨rfl, rfl, rfl, h9, ?_, rfl, rfl, rfl, rfl, ?_⟩
      · simp [sgSecReq]
      · dsimp only
        rw [h48]
        rfl) rfl rfl

theorem secRound_keeps (p : SgPlaces) (rw' : Bool) (protocol : Byte) (comId : BitVec 16) (data : Bytes) (secs dx : Nat) (m : Bytes)
    (hm : QuietSg m) (h9 : num m 9 1 = 0) (h48 : num m 48 4 = 0) :
    num (sgSecRound p rw' protocol comId data secs dx m) 9 1 = 0 ∧ num (sgSecRound p rw' protocol comId data secs dx m) 48 4 = 0 := by
  have h := (secRound_read p rw' protocol comId data secs dx m hm).2.2
  have h1 := congrArg SgHeader.mxSbLen h
  have h2 := congrArg SgHeader.packId h
  dsimp only [sgHeaderAt] at h1 h2
  refine ⟨h1.trans h9, ?_⟩
  rw [h48] at h2
  have h3 := congrArg BitVec.toNat h2
  rw [BitVec.toNat_ofNat, Nat.mod_eq_of_lt] at h3
  · exact h3
  · unfold num
    have := leVal_lt (slice (sgSecRound p rw' protocol comId data secs dx m) 48 4)
    have hl : (slice (sgSecRound p rw' protocol comId data secs dx m) 48 4).length ≤ 4 := by unfold slice; exact List.length_take_le _ _
    exact Nat.lt_of_lt_of_le this (Nat.pow_le_pow_right (by decide) hl : 256 ^ _ ≤ 256 ^ 4)

/-- **C170.** The same for `scsiSecurityCommand`. -/
theorem sg_security_records (p : SgPlaces) (rest : SgReq → SgRep → Bytes) (hrest : ∀ k a, (rest k a).length = 19) (rw' : Bool)
    (protocol : Byte) (comId : BitVec 16) (data : Bytes) (addr base secs : Nat) :
    OutT.interp (kernelSg p rest) (rawSecurity p rw' protocol comId data addr base secs) =
      sgSecurity rw' protocol comId data addr base secs := by
  unfold rawSecurity sgSecurity
  dsimp only
  generalize (if rw' = true then data else zeros data.length) = data
  cases hmem : sgFirstMem rw' data addr base with
  | panic => rfl
  | ret v =>
    obtain ⟨x, ab⟩ := v
    have z9 : num (zeros sgRecordSize) 9 1 = 0 := by decide +kernel
    have z48 : num (zeros sgRecordSize) 48 4 = 0 := by decide +kernel
    have hround := sec_round p rest rw' protocol comId data secs x _ quiet_zeros z9 z48
    refine (interp_ask_then (kernelSg p rest) _ _).trans ?_
    rw [hround]
    refine ask_ret_cong _ _ _ _ (fun a => ?_)
    have hr := secRound_read p rw' protocol comId data secs (x.addr p) _ quiet_zeros
    have hk := secRound_keeps p rw' protocol comId data secs (x.addr p) _ quiet_zeros z9 z48
    have hret := sg_returned _ hr.1 a.status
      (rest (sgSecReq rw' protocol comId data secs x) a) (a.sense.take 0) (hrest _ _) (by simp)
    rw [hr.2.1, sgBack_zeros] at hret
    have k9 := (hret.2.1 9 1 (by decide)).trans hk.1
    have k48 := (hret.2.1 48 4 (by decide)).trans hk.2
    dsimp only
    generalize copyAt (copyAt (sgSecRound p rw' protocol comId data secs (x.addr p) _) _ _) _ _ = m1 at hret k9 k48 ⊢
    obtain ⟨hq1, -, hb1⟩ := hret
    have haft := rawAfterFirst_eq rw' data addr base x ab hmem (sgSecReq rw' protocol comId data secs x) a m1
    rw [haft, hb1]
    generalize sgAfterFirst rw' data ab _ a = after
    cases after with
    | panic => rfl
    | ret d2 =>
      cases a.err with
      | none => rfl
      | some e =>
        refine (interp_ask_then (kernelSg p rest) _ _).trans ?_
        have hround2 := sec_round p rest rw' protocol comId d2 secs (.raw sgRecordSize) m1 hq1 k9 k48
        refine (congrArg (fun z : SgM RawSgRep => z >>= _) hround2).trans ?_
        refine ask_ret_cong _ _ _ _ (fun b => ?_)
        have hb2 := secRound_read p rw' protocol comId d2 secs sgRecordSize m1 hq1
        have hret2 := sg_returned _ hb2.1 b.status
          (rest (sgSecReq rw' protocol comId d2 secs (.raw sgRecordSize)) b) (b.sense.take 0) (hrest _ _) (by simp)
        dsimp only [Dxfer.addr]
        cases b.err with
        | none =>
          dsimp only
          rw [hb2.2.1, hb1]
          rfl
        | some e2 =>
          dsimp only
          rw [hret2.2.2, hb2.2.1, hb1]
          rfl

/-- The record of an IDENTIFY DEVICE command: 512 bytes at 1000h, CDB at 2000h, record at 3000h, 3 seconds. -/
example :
    let p : SgPlaces := { record := 0x3000, header := 0x4000, cmd := 0x2000 }
    let m := sgTaskRound p false false identifyTf (some (zeros 512)) 3 0x1000 (zeros sgRecordSize)
    m.length = 128 ∧ m.take 44 = [0x53#8, 0#8, 0#8, 0#8, 0xfd#8, 0xff#8, 0xff#8, 0xff#8, 12#8, 32#8, 0#8, 0#8, 0#8, 2#8, 0#8, 0#8,
      0#8, 0x10#8, 0#8, 0#8, 0#8, 0#8, 0#8, 0#8, 0#8, 0x20#8, 0#8, 0#8, 0#8, 0#8, 0#8, 0#8, 0x5c#8, 0x30#8, 0#8, 0#8, 0#8, 0#8, 0#8, 0#8,
      3#8, 0#8, 0#8, 0#8] := by decide +kernel

/-- The kernel's refusal of a record whose interface id is not 'S'. -/
example (p : SgPlaces) : kernelSg p (fun _ _ => zeros 19) { op := 0x2285, record := zeros 128, cmd := [], mem := .raw 0 } =
    OutT.ret { err := some (.errno 22), record := zeros 128 } := by
  unfold kernelSg
  rw [if_neg (fun h => absurd h.2.2.1 (by decide +kernel))]

/-- A command without data that fails at first with status 2 and a sense byte: the second round hands over the record with what the kernel
wrote, and 128 (the record's size) in `Dxferp`. -/
example :
    let p : SgPlaces := { record := 0x3000, header := 0x4000, cmd := 0x2000 }
    let kernel : Prog.Env RawSg RawSgRep := fun _ q => { err := some (.errno 5), record := copyAt (copyAt q.record 64 [2#8]) 92 [0x72#8] }
    ((OutT.run kernel [] (rawTaskFile p false false identifyTf none 0 0 3)).2.map
      (fun s => (num s.1.record 16 8, num s.1.record 64 1, num s.1.record 92 1))) = [(0x4000, 0, 0), (128, 2, 0x72)] := by decide +kernel

/-- The same two rounds through the kernel's reading of the records: two SG_IO commands with the CDB of the library. -/
example :
    let p : SgPlaces := { record := 0x3000, header := 0x4000, cmd := 0x2000 }
    let kernel : Prog.Env KReq SgRep := fun _ _ => { err := some (.errno 5), status := 2#8, sense := [0x72#8] }
    ((OutT.run kernel [] (OutT.interp (kernelSg p (fun _ _ => zeros 19)) (rawSecurity p false 1 0x7fe [9, 9] 512 0 5))).2.map
      (fun s => match s.1 with | .sgIo q => (q.cdb.take 4, q.dxferp, q.timeout.toNat) | .close => ([], .raw 0, 0))) =
      [([0xa2#8, 1#8, 7#8, 0xfe#8], .mem 512 [0#8, 0#8], 5000), ([0xa2#8, 1#8, 7#8, 0xfe#8], .raw 128, 5000)] := by decide +kernel

/-- The record of an NVMe identify command (opcode 6, controller structure, 4096 bytes at 123456789A00h, 3 seconds). -/
example :
    let c : NvmeCmd := { opcode := 6, nsid := 0, dataBuffer := some (zeros 4096), dataLen := 4096, cdw10 := 1, timeoutMs := 3000 }
    let m := adminBytes c 0x123456789A00#64
    m.take 8 = [6#8, 0#8, 0#8, 0#8, 0#8, 0#8, 0#8, 0#8] ∧ slice m 24 8 = [0#8, 0x9a#8, 0x78#8, 0x56#8, 0x34#8, 0x12#8, 0#8, 0#8] ∧
      slice m 36 8 = [0#8, 0x10#8, 0#8, 0#8, 1#8, 0#8, 0#8, 0#8] ∧ num m 64 4 = 3000 := by decide +kernel

end Dparm
