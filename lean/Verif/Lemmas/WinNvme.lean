import Verif.Spec.WinNvme
import Verif.Lemmas.Win
import Verif.Lemmas.Wire
/-!
# Lemmas on the records of the Windows NVMe drivers
-/
namespace Dparm
open Spec

/-- Successive writes into a record. -/
def writes (p : Bytes) (ws : List (Nat × Bytes)) : Bytes := ws.foldl (fun p w => copyAt p w.1 w.2) p

/-- Offset and length of each write. -/
def shape (ws : List (Nat × Bytes)) : List (Nat × Nat) := ws.map (fun w => (w.1, w.2.length))

theorem writes_length {p : Bytes} {N : Nat} (ws : List (Nat × Bytes)) (hp : p.length = N)
    (hfit : ∀ s ∈ shape ws, s.1 + s.2 ≤ N) : (writes p ws).length = N := by
  induction ws generalizing p with
  | nil => exact hp
  | cons w ws ih =>
    show (writes (copyAt p w.1 w.2) ws).length = N
    exact ih (put_length hp (hfit (w.1, w.2.length) (by simp [shape])))
      (fun s hs => hfit s (by simp only [shape, List.map_cons, List.mem_cons] at hs ⊢; exact .inr hs))

/-- A range no write touches. -/
theorem slice_writes_other {p : Bytes} {N : Nat} (ws : List (Nat × Bytes)) (hp : p.length = N) (j n : Nat)
    (hfit : ∀ s ∈ shape ws, s.1 + s.2 ≤ N) (hdis : ∀ s ∈ shape ws, s.1 + s.2 ≤ j ∨ j + n ≤ s.1) :
    slice (writes p ws) j n = slice p j n := by
  induction ws generalizing p with
  | nil => rfl
  | cons w ws ih =>
    show slice (writes (copyAt p w.1 w.2) ws) j n = _
    have hw := hfit (w.1, w.2.length) (by simp [shape])
    have hd := hdis (w.1, w.2.length) (by simp [shape])
    rw [ih (put_length hp hw) (fun s hs => hfit s (List.mem_cons_of_mem _ hs))
      (fun s hs => hdis s (List.mem_cons_of_mem _ hs))]
    exact put_other hp hw (hd.symm)

/-- The range of the `k`-th write, if no later one touches it. -/
theorem slice_writes_at {p : Bytes} {N : Nat} (ws : List (Nat × Bytes)) (hp : p.length = N) (k j n : Nat) (d : Bytes)
    (hfit : ∀ s ∈ shape ws, s.1 + s.2 ≤ N) (hk : ws[k]? = some (j, d)) (hn : (shape ws)[k]? = some (j, n))
    (hdis : ∀ s ∈ (shape ws).drop (k + 1), s.1 + s.2 ≤ j ∨ j + n ≤ s.1) :
    slice (writes p ws) j n = d := by
  have hdn : n = d.length := by
    unfold shape at hn
    rw [List.getElem?_map, hk] at hn
    simp only [Option.map_some, Option.some.injEq, Prod.mk.injEq, true_and] at hn
    exact hn.symm
  induction ws generalizing p k with
  | nil => simp at hk
  | cons w ws ih =>
    show slice (writes (copyAt p w.1 w.2) ws) j n = _
    have hw := hfit (w.1, w.2.length) (by simp [shape])
    have hfit' : ∀ s ∈ shape ws, s.1 + s.2 ≤ N := fun s hs => hfit s (List.mem_cons_of_mem _ hs)
    cases k with
    | zero =>
      simp only [List.getElem?_cons_zero, Option.some.injEq] at hk
      rw [slice_writes_other ws (put_length hp hw) j n hfit' hdis, hk]
      rw [hk] at hw
      exact put_same hp hdn hw
    | succ k => exact ih (put_length hp hw) k hfit' (by simpa using hk) (by simpa [shape] using hn) hdis

theorem leVal_zeros (n : Nat) : leVal (zeros n) = 0 := by
  induction n with
  | zero => rfl
  | succ n ih =>
    show leVal (0#8 :: zeros n) = 0
    simp [leVal, ih]

theorem leVal_le4 (x : Nat) (h : x < 2 ^ 32) : leVal (leBytes 4 x) = x := by
  rw [leVal_leBytes]
  exact Nat.mod_eq_of_lt (by simpa using h)

theorem getD_eq_slice (p : Bytes) (i : Nat) : p.getD i 0#8 = (slice p i 1).getD 0 0#8 := by
  rw [List.getD_eq_getElem?_getD, List.getD_eq_getElem?_getD, getElem?_slice, if_pos (by omega)]
  rfl

/-- A record that starts from the header, with command fields and data written into it. -/
def miniportWrites (op : Byte) (nsid c10 c11 c12 c13 c14 c15 : Nat) (data : Bytes) : List (Nat × Bytes) :=
  [(16, leBytes 4 0xe0002000), (0, leBytes 4 28), (4, ascii "NvmeMini"), (12, leBytes 4 40), (24, leBytes 4 4220),
   (140, leBytes 4 4096), (148, leBytes 4 4248), (132, leBytes 4 2), (152, data), (52, [op]), (56, leBytes 4 nsid),
   (92, leBytes 4 c10), (96, leBytes 4 c11), (100, leBytes 4 c12), (104, leBytes 4 c13), (108, leBytes 4 c14),
   (112, leBytes 4 c15)]

theorem miniportWrites_view (op : Byte) (nsid c10 c11 c12 c13 c14 c15 : Nat) (data : Bytes)
    (hd : data.length = 4096) (h0 : nsid < 2 ^ 32) (h10 : c10 < 2 ^ 32) (h11 : c11 < 2 ^ 32) (h12 : c12 < 2 ^ 32)
    (h13 : c13 < 2 ^ 32) (h14 : c14 < 2 ^ 32) (h15 : c15 < 2 ^ 32) :
    (writes (zeros 4248) (miniportWrites op nsid c10 c11 c12 c13 c14 c15 data)).length = 4248 ∧
    miniportView (writes (zeros 4248) (miniportWrites op nsid c10 c11 c12 c13 c14 c15 data)) =
      miniportOf op nsid c10 c11 c12 c13 c14 c15 data := by
  have hsh : shape (miniportWrites op nsid c10 c11 c12 c13 c14 c15 data) =
      [(16, 4), (0, 4), (4, 8), (12, 4), (24, 4), (140, 4), (148, 4), (132, 4), (152, 4096), (52, 1), (56, 4), (92, 4),
       (96, 4), (100, 4), (104, 4), (108, 4), (112, 4)] := by
    simp only [shape, miniportWrites, List.map_cons, List.map_nil, leBytes_length, hd, List.length_cons, List.length_nil]
    rfl
  have l0 : (zeros 4248).length = 4248 := zeros_length _
  obtain ⟨ws, hws⟩ : ∃ ws, ws = miniportWrites op nsid c10 c11 c12 c13 c14 c15 data := ⟨_, rfl⟩
  rw [← hws] at hsh ⊢
  have hfit : ∀ s ∈ shape ws, s.1 + s.2 ≤ 4248 := by rw [hsh]; decide
  have fa : ∀ k j n d, ws[k]? = some (j, d) → (shape ws)[k]? = some (j, n) →
      (∀ s ∈ (shape ws).drop (k + 1), s.1 + s.2 ≤ j ∨ j + n ≤ s.1) → slice (writes (zeros 4248) ws) j n = d :=
    fun k j n d h1 h2 h3 => slice_writes_at ws l0 k j n d hfit h1 h2 h3
  have fo : ∀ j n, j + n ≤ 4248 → (∀ s ∈ shape ws, s.1 + s.2 ≤ j ∨ j + n ≤ s.1) →
      slice (writes (zeros 4248) ws) j n = zeros n := fun j n h1 h2 => by
    rw [slice_writes_other ws l0 j n hfit h2, slice_zeros _ _ _ h1]
  refine ⟨writes_length ws l0 hfit, ?_⟩
  unfold miniportView miniportOf
  rw [MiniportView.mk.injEq]
  refine ⟨?_, ?_, ?_, ?_, ?_, ?_, ?_, ?_, ?_, ?_, ?_, ?_, ?_, ?_, ?_, ?_, ?_, ?_, ?_, ?_, ?_, ?_, ?_, ?_⟩
  · rw [fa 1 0 4 _ (by rw [hws]; rfl) (by rw [hsh]; rfl) (by rw [hsh]; decide)]; exact leVal_le4 _ (by decide)
  · exact fa 2 4 8 _ (by rw [hws]; rfl) (by rw [hsh]; rfl) (by rw [hsh]; decide)
  · rw [fa 3 12 4 _ (by rw [hws]; rfl) (by rw [hsh]; rfl) (by rw [hsh]; decide)]; exact leVal_le4 _ (by decide)
  · rw [fa 0 16 4 _ (by rw [hws]; rfl) (by rw [hsh]; rfl) (by rw [hsh]; decide)]; exact leVal_le4 _ (by decide)
  · rw [fo 20 4 (by decide) (by rw [hsh]; decide)]; exact leVal_zeros 4
  · rw [fa 4 24 4 _ (by rw [hws]; rfl) (by rw [hsh]; rfl) (by rw [hsh]; decide)]; exact leVal_le4 _ (by decide)
  · exact fo 28 24 (by decide) (by rw [hsh]; decide)
  · show List.getD _ 52 0#8 = _
    rw [getD_eq_slice, fa 9 52 1 _ (by rw [hws]; rfl) (by rw [hsh]; rfl) (by rw [hsh]; decide)]; rfl
  · exact fo 53 3 (by decide) (by rw [hsh]; decide)
  · rw [fa 10 56 4 _ (by rw [hws]; rfl) (by rw [hsh]; rfl) (by rw [hsh]; decide)]; exact leVal_le4 _ h0
  · exact fo 60 32 (by decide) (by rw [hsh]; decide)
  · rw [fa 11 92 4 _ (by rw [hws]; rfl) (by rw [hsh]; rfl) (by rw [hsh]; decide)]; exact leVal_le4 _ h10
  · rw [fa 12 96 4 _ (by rw [hws]; rfl) (by rw [hsh]; rfl) (by rw [hsh]; decide)]; exact leVal_le4 _ h11
  · rw [fa 13 100 4 _ (by rw [hws]; rfl) (by rw [hsh]; rfl) (by rw [hsh]; decide)]; exact leVal_le4 _ h12
  · rw [fa 14 104 4 _ (by rw [hws]; rfl) (by rw [hsh]; rfl) (by rw [hsh]; decide)]; exact leVal_le4 _ h13
  · rw [fa 15 108 4 _ (by rw [hws]; rfl) (by rw [hsh]; rfl) (by rw [hsh]; decide)]; exact leVal_le4 _ h14
  · rw [fa 16 112 4 _ (by rw [hws]; rfl) (by rw [hsh]; rfl) (by rw [hsh]; decide)]; exact leVal_le4 _ h15
  · exact fo 116 16 (by decide) (by rw [hsh]; decide)
  · rw [fa 7 132 4 _ (by rw [hws]; rfl) (by rw [hsh]; rfl) (by rw [hsh]; decide)]; exact leVal_le4 _ (by decide)
  · rw [fo 136 4 (by decide) (by rw [hsh]; decide)]; exact leVal_zeros 4
  · rw [fa 5 140 4 _ (by rw [hws]; rfl) (by rw [hsh]; rfl) (by rw [hsh]; decide)]; exact leVal_le4 _ (by decide)
  · rw [fo 144 4 (by decide) (by rw [hsh]; decide)]; exact leVal_zeros 4
  · rw [fa 6 148 4 _ (by rw [hws]; rfl) (by rw [hsh]; rfl) (by rw [hsh]; decide)]; exact leVal_le4 _ (by decide)
  · exact fa 8 152 4096 _ (by rw [hws]; rfl) (by rw [hsh]; rfl) (by rw [hsh]; decide)

theorem miniportRecord_view (c : NvmeCmd) (data : Bytes) :
    (miniportRecord c data).length = 4248 ∧ miniportView (miniportRecord c data) =
      miniportOf c.opcode c.nsid.toNat c.cdw10.toNat c.cdw11.toNat c.cdw12.toNat c.cdw13.toNat c.cdw14.toNat
        c.cdw15.toNat (delivered (zeros 4096) data) := by
  have := miniportWrites_view c.opcode c.nsid.toNat c.cdw10.toNat c.cdw11.toNat c.cdw12.toNat c.cdw13.toNat c.cdw14.toNat
        c.cdw15.toNat (delivered (zeros 4096) data) (by rw [delivered_length, zeros_length]) (BitVec.isLt _) (BitVec.isLt _)
        (BitVec.isLt _) (BitVec.isLt _) (BitVec.isLt _) (BitVec.isLt _) (BitVec.isLt _)
  rw [← storeInto_delivered] at this ⊢
  exact this

theorem miniportIdent_view :
    (copyAt (copyAt miniportHeader 52 [6#8]) 92 (leBytes 4 1)).length = 4248 ∧
    miniportView (copyAt (copyAt miniportHeader 52 [6#8]) 92 (leBytes 4 1)) =
      miniportOf 6 0 1 0 0 0 0 0 (zeros 4096) := by
  obtain ⟨ws, hws⟩ : ∃ ws : List (Nat × Bytes), ws =
    [(16, leBytes 4 0xe0002000), (0, leBytes 4 28), (4, ascii "NvmeMini"), (12, leBytes 4 40), (24, leBytes 4 4220),
     (140, leBytes 4 4096), (148, leBytes 4 4248), (132, leBytes 4 2), (52, [6#8]), (92, leBytes 4 1)] := ⟨_, rfl⟩
  have heq : copyAt (copyAt miniportHeader 52 [6#8]) 92 (leBytes 4 1) = writes (zeros 4248) ws := by
    rw [hws]; rfl
  rw [heq]
  have hsh : shape ws =
      [(16, 4), (0, 4), (4, 8), (12, 4), (24, 4), (140, 4), (148, 4), (132, 4), (52, 1), (92, 4)] := by
    rw [hws]
    simp only [shape, List.map_cons, List.map_nil, leBytes_length, List.length_cons, List.length_nil]
    rfl
  have l0 : (zeros 4248).length = 4248 := zeros_length _
  have hfit : ∀ s ∈ shape ws, s.1 + s.2 ≤ 4248 := by rw [hsh]; decide
  have fa : ∀ k j n d, ws[k]? = some (j, d) → (shape ws)[k]? = some (j, n) →
      (∀ s ∈ (shape ws).drop (k + 1), s.1 + s.2 ≤ j ∨ j + n ≤ s.1) → slice (writes (zeros 4248) ws) j n = d :=
    fun k j n d h1 h2 h3 => slice_writes_at ws l0 k j n d hfit h1 h2 h3
  have fo : ∀ j n, j + n ≤ 4248 → (∀ s ∈ shape ws, s.1 + s.2 ≤ j ∨ j + n ≤ s.1) →
      slice (writes (zeros 4248) ws) j n = zeros n := fun j n h1 h2 => by
    rw [slice_writes_other ws l0 j n hfit h2, slice_zeros _ _ _ h1]
  have fz : ∀ j, j + 4 ≤ 4248 → (∀ s ∈ shape ws, s.1 + s.2 ≤ j ∨ j + 4 ≤ s.1) →
      leVal (slice (writes (zeros 4248) ws) j 4) = 0 := fun j h1 h2 => by rw [fo j 4 h1 h2]; exact leVal_zeros 4
  refine ⟨writes_length ws l0 hfit, ?_⟩
  unfold miniportView miniportOf
  rw [MiniportView.mk.injEq]
  refine ⟨?_, ?_, ?_, ?_, ?_, ?_, ?_, ?_, ?_, ?_, ?_, ?_, ?_, ?_, ?_, ?_, ?_, ?_, ?_, ?_, ?_, ?_, ?_, ?_⟩
  · rw [fa 1 0 4 _ (by rw [hws]; rfl) (by rw [hsh]; rfl) (by rw [hsh]; decide)]; exact leVal_le4 _ (by decide)
  · exact fa 2 4 8 _ (by rw [hws]; rfl) (by rw [hsh]; rfl) (by rw [hsh]; decide)
  · rw [fa 3 12 4 _ (by rw [hws]; rfl) (by rw [hsh]; rfl) (by rw [hsh]; decide)]; exact leVal_le4 _ (by decide)
  · rw [fa 0 16 4 _ (by rw [hws]; rfl) (by rw [hsh]; rfl) (by rw [hsh]; decide)]; exact leVal_le4 _ (by decide)
  · exact fz 20 (by decide) (by rw [hsh]; decide)
  · rw [fa 4 24 4 _ (by rw [hws]; rfl) (by rw [hsh]; rfl) (by rw [hsh]; decide)]; exact leVal_le4 _ (by decide)
  · exact fo 28 24 (by decide) (by rw [hsh]; decide)
  · show List.getD _ 52 0#8 = _
    rw [getD_eq_slice, fa 8 52 1 _ (by rw [hws]; rfl) (by rw [hsh]; rfl) (by rw [hsh]; decide)]; rfl
  · exact fo 53 3 (by decide) (by rw [hsh]; decide)
  · exact fz 56 (by decide) (by rw [hsh]; decide)
  · exact fo 60 32 (by decide) (by rw [hsh]; decide)
  · rw [fa 9 92 4 _ (by rw [hws]; rfl) (by rw [hsh]; rfl) (by rw [hsh]; decide)]; exact leVal_le4 _ (by decide)
  · exact fz 96 (by decide) (by rw [hsh]; decide)
  · exact fz 100 (by decide) (by rw [hsh]; decide)
  · exact fz 104 (by decide) (by rw [hsh]; decide)
  · exact fz 108 (by decide) (by rw [hsh]; decide)
  · exact fz 112 (by decide) (by rw [hsh]; decide)
  · exact fo 116 16 (by decide) (by rw [hsh]; decide)
  · rw [fa 7 132 4 _ (by rw [hws]; rfl) (by rw [hsh]; rfl) (by rw [hsh]; decide)]; exact leVal_le4 _ (by decide)
  · exact fz 136 (by decide) (by rw [hsh]; decide)
  · rw [fa 5 140 4 _ (by rw [hws]; rfl) (by rw [hsh]; rfl) (by rw [hsh]; decide)]; exact leVal_le4 _ (by decide)
  · exact fz 144 (by decide) (by rw [hsh]; decide)
  · rw [fa 6 148 4 _ (by rw [hws]; rfl) (by rw [hsh]; rfl) (by rw [hsh]; decide)]; exact leVal_le4 _ (by decide)
  · exact fo 152 4096 (by decide) (by rw [hsh]; decide)

theorem storageQuery_view (n prop dt v : Nat) (h1 : prop < 2 ^ 32) (h2 : dt < 2 ^ 32) (h3 : v < 2 ^ 32) :
    (storageQuery n prop dt v).length = 48 + n ∧ queryView (storageQuery n prop dt v) =
      { propertyId := prop, queryType := 0, protocolType := 3, dataType := dt, requestValue := v, requestSubValue := 0,
        dataOffset := 40, dataLength := n % 2 ^ 32, fixedReturn := 0, subValues := zeros 12, data := zeros n } := by
  obtain ⟨ws, hws⟩ : ∃ ws : List (Nat × Bytes), ws =
    [(0, leBytes 4 prop), (8, leBytes 4 3), (12, leBytes 4 dt), (16, leBytes 4 v), (24, leBytes 4 40), (28, leBytes 4 n)] :=
    ⟨_, rfl⟩
  have heq : storageQuery n prop dt v = writes (zeros (48 + n)) ws := by rw [hws]; rfl
  rw [heq]
  have hsh : shape ws = [(0, 4), (8, 4), (12, 4), (16, 4), (24, 4), (28, 4)] := by
    rw [hws]
    simp only [shape, List.map_cons, List.map_nil, leBytes_length]
  have l0 : (zeros (48 + n)).length = 48 + n := zeros_length _
  have hfit : ∀ s ∈ shape ws, s.1 + s.2 ≤ 48 + n := by
    intro s hs
    have : ∀ s ∈ shape ws, s.1 + s.2 ≤ 48 := by rw [hsh]; decide
    have := this s hs
    omega
  have fa : ∀ k j d, ws[k]? = some (j, leBytes 4 d) → (shape ws)[k]? = some (j, 4) → d < 2 ^ 32 →
      (∀ s ∈ (shape ws).drop (k + 1), s.1 + s.2 ≤ j ∨ j + 4 ≤ s.1) → leVal (slice (writes (zeros (48 + n)) ws) j 4) = d :=
    fun k j d h1 h2 h4 h3 => by rw [slice_writes_at ws l0 k j 4 _ hfit h1 h2 h3]; exact leVal_le4 _ h4
  have fo : ∀ j m, j + m ≤ 48 → (∀ s ∈ shape ws, s.1 + s.2 ≤ j ∨ j + m ≤ s.1) →
      slice (writes (zeros (48 + n)) ws) j m = zeros m := fun j m h1 h2 => by
    rw [slice_writes_other ws l0 j m hfit h2, slice_zeros _ _ _ (by omega)]
  have fz : ∀ j, j + 4 ≤ 48 → (∀ s ∈ shape ws, s.1 + s.2 ≤ j ∨ j + 4 ≤ s.1) →
      leVal (slice (writes (zeros (48 + n)) ws) j 4) = 0 := fun j h1 h2 => by rw [fo j 4 h1 h2]; exact leVal_zeros 4
  have hlen := writes_length ws l0 hfit
  refine ⟨hlen, ?_⟩
  unfold queryView
  rw [QueryView.mk.injEq]
  refine ⟨?_, ?_, ?_, ?_, ?_, ?_, ?_, ?_, ?_, ?_, ?_⟩
  · exact fa 0 0 prop (by rw [hws]; rfl) (by rw [hsh]; rfl) h1 (by rw [hsh]; decide)
  · exact fz 4 (by decide) (by rw [hsh]; decide)
  · exact fa 1 8 3 (by rw [hws]; rfl) (by rw [hsh]; rfl) (by decide) (by rw [hsh]; decide)
  · exact fa 2 12 dt (by rw [hws]; rfl) (by rw [hsh]; rfl) h2 (by rw [hsh]; decide)
  · exact fa 3 16 v (by rw [hws]; rfl) (by rw [hsh]; rfl) h3 (by rw [hsh]; decide)
  · exact fz 20 (by decide) (by rw [hsh]; decide)
  · exact fa 4 24 40 (by rw [hws]; rfl) (by rw [hsh]; rfl) (by decide) (by rw [hsh]; decide)
  · rw [slice_writes_at ws l0 5 28 4 _ hfit (by rw [hws]; rfl) (by rw [hsh]; rfl) (by rw [hsh]; decide), leVal_leBytes]
  · exact fz 32 (by decide) (by rw [hsh]; decide)
  · exact fo 36 12 (by decide) (by rw [hsh]; decide)
  · have e1 : (writes (zeros (48 + n)) ws).drop 48 = slice (writes (zeros (48 + n)) ws) 48 n := by
      unfold slice
      rw [List.take_of_length_le (by rw [List.length_drop, hlen]; omega)]
    rw [e1, slice_writes_other ws l0 48 n hfit (by
      intro s hs
      have : ∀ s ∈ shape ws, s.1 + s.2 ≤ 48 := by rw [hsh]; decide
      exact .inl (this s hs)), slice_zeros _ _ _ (by omega)]

/-! ### Decimal -/

theorem numberOf_append (a : Bytes) (d : Byte) : numberOf (a ++ [d]) = numberOf a * 10 + (d.toNat - 0x30) := by
  induction a with
  | nil => simp [numberOf]
  | cons x xs ih =>
    simp only [List.cons_append, numberOf, ih, List.length_append, List.length_singleton, Nat.pow_succ, Nat.add_mul]
    rw [Nat.mul_assoc, Nat.add_assoc]

theorem digits_decimal (n : Nat) : DecimalOf n (digits n) := by
  induction n using Nat.strongRecOn with
  | ind n ih =>
    rw [digits]
    by_cases h : n < 10
    · rw [dif_pos h]
      have hb : (BitVec.ofNat 8 (0x30 + n)).toNat = 0x30 + n := by
        rw [BitVec.toNat_ofNat]; exact Nat.mod_eq_of_lt (by omega)
      refine ⟨?_, by simp, ?_, ?_⟩
      · intro c hc
        simp only [List.mem_singleton] at hc
        rw [hc]; unfold Digit; omega
      · simp only [numberOf, hb, List.length_nil, Nat.pow_zero]; omega
      · intro hh
        simp only [List.head?_cons, Option.some.injEq] at hh
        rw [hh]
    · rw [dif_neg h]
      have hn := ih (n / 10) (by omega)
      have hb : (BitVec.ofNat 8 (0x30 + n % 10)).toNat = 0x30 + n % 10 := by
        rw [BitVec.toNat_ofNat]; exact Nat.mod_eq_of_lt (by omega)
      refine ⟨?_, by simp, ?_, ?_⟩
      · intro c hc
        simp only [List.mem_append, List.mem_singleton] at hc
        rcases hc with hc | hc
        · exact hn.digits c hc
        · rw [hc]; unfold Digit; omega
      · rw [numberOf_append, hn.value, hb]; omega
      · intro hh
        have hne := hn.nonempty
        cases hd : digits (n / 10) with
        | nil => exact absurd hd hne
        | cons x xs =>
          rw [hd] at hh
          have h0 := hn.short (by rw [hd]; simpa using hh)
          have hv := hn.value
          rw [h0] at hv
          have : numberOf [(0x30 : Byte)] = 0 := by decide
          omega

end Dparm
