import Verif.Lemmas.WinHandles
import Verif.Lemmas.Halts
/-!
# Handles of a drive opened on Windows, and enumerating drives (C106, C107)
-/
namespace Dparm
open Spec

/-- C106: the handles of a drive opened by its path. A failed open leaves nothing open. A successful one has opened the
device, with handle `h`, first; of the handles opened afterwards those that are not closed again are the ones the driver
keeps. `Close` closes `h` and nothing else if a driver accepted the drive; if none did, it closes nothing, and the drive
stays open. -/
theorem win_open_handles (w : WinRun) (b b' : Nat) (path : Bytes) (env : Prog.Env WReq WRep) (hist t : Prog.Trace WReq WRep) :
    (∀ e, OutT.run env hist (winOpenByPath w (winOpeners b b') path) = (.ret (.err e), t) →
      handlesOpened t = [] ∧ handlesClosed t = []) ∧
    (∀ o, OutT.run env hist (winOpenByPath w (winOpeners b b') path) = (.ret (.ok o), t) →
      ∃ h, handlesOpened t = h :: handlesClosed t ++ keptOf o ∧
        ∀ hist', ∃ o' tc, OutT.run env hist' (o.close w) = (.ret o', tc) ∧ handlesOpened tc = [] ∧
          handlesClosed tc = (if o.drv = none then [] else [h])) := by
  unfold winOpenByPath winOpenDevice
  by_cases hp : path.contains 0#8 = true
  · rw [if_pos hp, OutT.run_bind]
    simp only [OutT.run_ret, List.append_nil, Prod.mk.injEq]
    refine ⟨fun e h => ?_, fun o h => by simp at h⟩
    rw [← h.2]
    exact ⟨rfl, rfl⟩
  · rw [if_neg hp, OutT.run_bind, OutT.run_ask_bind]
    obtain ⟨r, hr⟩ : ∃ r, r = env hist (.openDevice path) := ⟨_, rfl⟩
    rw [← hr]
    cases he : r.err with
    | some e =>
      simp only [OutT.run_ret, List.append_nil, Prod.mk.injEq]
      refine ⟨fun e h => ?_, fun o h => by simp at h⟩
      rw [← h.2]
      exact ⟨by simp [handlesOpened, he], rfl⟩
    | none =>
      simp only [OutT.run_ret]
      rw [OutT.run_bind]
      rcases hrun : OutT.run env (hist ++ [(WReq.openDevice path, r)])
        (winOpenByHandle w (winOpeners b b') r.handle path) with ⟨o, u⟩
      cases o with
      | panic => simp
      | running => simp
      | ret o =>
        simp only [OutT.run_ret, List.append_nil, Prod.mk.injEq, Out.ret.injEq]
        refine ⟨fun e h => by simp at h, fun o2 h => ?_⟩
        simp only [Res.ok.injEq] at h
        obtain ⟨rfl, rfl⟩ := h
        obtain ⟨h1, h2⟩ := winOpenByHandle_handles w b b' r.handle path env _ u o hrun
        refine ⟨r.handle, ?_, ?_⟩
        · have e1 : handlesOpened [(WReq.openDevice path, r)] = [r.handle] := by simp [handlesOpened, he]
          have e2 : handlesClosed [(WReq.openDevice path, r)] = [] := rfl
          rw [handlesOpened_append, handlesClosed_append, e1, e2]
          unfold keptOf
          cases hk : o.drv with
          | none => rw [h2 hk]; simp
          | some k => rw [(h1 k hk).2]; simp
        · intro hist'
          obtain ⟨_, _, hkh⟩ : ∃ (_ _ : Nat), ∀ k, o.drv = some k → k.handle = r.handle := ⟨0, 0, fun k hk => (h1 k hk).1⟩
          obtain ⟨_, _, _, _, _, _, _, hcase⟩ := win_open_by_handle w _ r.handle path env _ u o hrun
          cases hk : o.drv with
          | none =>
            refine ⟨o, [], ?_, rfl, rfl⟩
            unfold WinOpened.close
            rw [hk]
            rfl
          | some k =>
            have hdh : ∃ d, o.handle.dh = some d := by
              rcases hcase with ⟨_, x, _, _, _, hd, _⟩ | ⟨_, hn, _⟩
              · exact ⟨_, hd⟩
              · rw [hk] at hn; cases hn
            obtain ⟨d, hd⟩ := hdh
            unfold WinOpened.close
            rw [hk]
            unfold Handle.close
            rw [hd]
            refine ⟨_, _, rfl, rfl, ?_⟩
            show [k.handle] = _
            rw [hkh k hk]
            rfl

/-- C75: the order of the factory's own list: the miniport driver, the inbox NVMe driver, the SCSI driver, the ATA driver.
Each is about the handle given, the first two are NVMe drivers, the others ATA drivers, and the identity is the one the
driver read. -/
theorem win_driver_order (b b' h i : Nat) (x : WinDrv × Driver) (env : Prog.Env WReq WRep) (hist : Prog.Trace WReq WRep)
    (segs : List (Prog.Trace WReq WRep)) (hf : FirstAccepted env hist (winOpeners b b') h i x segs) :
    (i = 0 ∧ ∃ sh, x.1 = .nvmeWin h sh ∧ x.2.ata = false ∧ x.2.nvme = true ∧
      ∃ H t, OutT.run env H (nvmeWinOpen h) = (.ret (.ok (sh, x.2.identity)), t)) ∨
    (i = 1 ∧ x.1 = .windowsNvme h ∧ x.2.ata = false ∧ x.2.nvme = true ∧
      ∃ H t, OutT.run env H (windowsNvmeOpen h) = (.ret (.ok x.2.identity), t)) ∨
    (i = 2 ∧ x.1 = .scsi h ∧ x.2.ata = true ∧ x.2.nvme = false ∧
      ∃ H t, OutT.run env H (winScsiOpen h b b') = (.ret (.ok x.2.identity), t)) ∨
    (i = 3 ∧ x.1 = .ata h ∧ x.2.ata = true ∧ x.2.nvme = false ∧
      ∃ H t, OutT.run env H (winAtaOpen h b b') = (.ret (.ok x.2.identity), t)) := by
  obtain ⟨d, seg, h1, -, h3⟩ := hf.accepted
  match i, h1 with
  | 0, h1 =>
    simp only [winOpeners, List.getElem?_cons_zero, Option.some.injEq] at h1
    subst h1
    obtain ⟨⟨sh, id⟩, ha, rfl⟩ := (asOpener_run _ _ h env _ seg).2 x h3
    exact .inl ⟨rfl, sh, rfl, rfl, rfl, _, _, ha⟩
  | 1, h1 =>
    simp only [winOpeners, List.getElem?_cons_succ, List.getElem?_cons_zero, Option.some.injEq] at h1
    subst h1
    obtain ⟨id, ha, rfl⟩ := (asOpener_run _ _ h env _ seg).2 x h3
    exact .inr (.inl ⟨rfl, rfl, rfl, rfl, _, _, ha⟩)
  | 2, h1 =>
    simp only [winOpeners, List.getElem?_cons_succ, List.getElem?_cons_zero, Option.some.injEq] at h1
    subst h1
    obtain ⟨id, ha, rfl⟩ := (asOpener_run _ _ h env _ seg).2 x h3
    exact .inr (.inr (.inl ⟨rfl, rfl, rfl, rfl, _, _, ha⟩))
  | 3, h1 =>
    simp only [winOpeners, List.getElem?_cons_succ, List.getElem?_cons_zero, Option.some.injEq] at h1
    subst h1
    obtain ⟨id, ha, rfl⟩ := (asOpener_run _ _ h env _ seg).2 x h3
    exact .inr (.inr (.inr ⟨rfl, rfl, rfl, rfl, _, _, ha⟩))
  | i + 4, h1 => simp [winOpeners] at h1

/-! ### Enumeration -/

theorem wideOf_length : ∀ b : Bytes, (wideOf b).length = b.length / 2
  | [] => rfl
  | [_] => by simp [wideOf]
  | a :: b :: r => by
    simp only [wideOf, List.length_cons, wideOf_length r]
    omega

theorem wideOf_getD : ∀ (b : Bytes) (i : Nat), 2 * i + 1 < b.length →
    ((wideOf b).getD i 0).toNat = leVal (slice b (2 * i) 2)
  | [], i, h => by simp at h
  | [_], i, h => by simp at h
  | a :: b :: r, 0, _ => by
    show (BitVec.ofNat 16 (a.toNat + 256 * b.toNat)).toNat = a.toNat + 256 * (b.toNat + 256 * 0)
    have := a.isLt
    have := b.isLt
    rw [BitVec.toNat_ofNat]
    omega
  | a :: b :: r, i + 1, h => by
    have := wideOf_getD r i (by simp at h; omega)
    have e : slice (a :: b :: r) (2 * (i + 1)) 2 = slice r (2 * i) 2 := by
      rw [show 2 * (i + 1) = 2 * i + 1 + 1 from by omega]
      rfl
    rw [e, ← this]
    rfl

theorem mem_takeWhile_sat {α : Type} {p : α → Bool} {x : α} : ∀ {l : List α}, x ∈ l.takeWhile p → p x = true
  | [], h => by simp at h
  | a :: l, h => by
    rw [List.takeWhile_cons] at h
    split at h
    · rename_i ha
      rcases List.mem_cons.mp h with rfl | h
      · exact ha
      · exact mem_takeWhile_sat h
    · simp at h

theorem detailText (buf : Bytes) :
    DetailText buf ((wideOf (buf.drop 4)).takeWhile (fun c => c != 0#16)) := by
  generalize htw : (wideOf (buf.drop 4)).takeWhile (fun c => c != 0#16) = text
  have hpre : text <+: wideOf (buf.drop 4) := htw ▸ List.takeWhile_prefix _
  have hlen : text.length ≤ (buf.length - 4) / 2 := by
    have := hpre.length_le
    rwa [wideOf_length, List.length_drop] at this
  have hsl : ∀ i, slice (buf.drop 4) (2 * i) 2 = slice buf (4 + 2 * i) 2 := by
    intro i
    unfold slice
    rw [List.drop_drop]
  refine ⟨fun i hi => ?_, fun hs => ?_⟩
  · have hg : text.getD i 0 = (wideOf (buf.drop 4)).getD i 0 := by
      obtain ⟨s, hs⟩ := hpre
      simp only [← hs, List.getD_eq_getElem?_getD, List.getElem?_append_left hi]
    refine ⟨by omega, ?_, ?_⟩
    · rw [hg, wideOf_getD _ _ (by rw [List.length_drop]; omega), hsl]
    · have hmem : text.getD i 0 ∈ text := by
        rw [List.getD_eq_getElem?_getD, List.getElem?_eq_getElem hi]
        exact List.getElem_mem hi
      rw [← htw] at hmem
      have := mem_takeWhile_sat hmem
      simpa [htw] using this
  · have hlt : text.length < (wideOf (buf.drop 4)).length := by
      rw [wideOf_length, List.length_drop]; omega
    rw [← hsl, ← wideOf_getD _ _ (by rw [List.length_drop]; omega)]
    have hd : (wideOf (buf.drop 4)).dropWhile (fun c => c != 0#16) ≠ [] := by
      intro hn
      have h2 := List.takeWhile_append_dropWhile (p := fun c => c != 0#16) (l := wideOf (buf.drop 4))
      rw [hn, List.append_nil, htw] at h2
      rw [h2] at hlt
      omega
    have hh := List.head_dropWhile_not (fun c => c != 0#16) (l := wideOf (buf.drop 4)) hd
    have hsplit := List.takeWhile_append_dropWhile (p := fun c => c != 0#16) (l := wideOf (buf.drop 4))
    obtain ⟨x, xs, hx⟩ := List.exists_cons_of_ne_nil hd
    rw [← hsplit, htw, hx]
    simp only [hx, List.head_cons] at hh
    rw [List.getD_eq_getElem?_getD, List.getElem?_append_right (Nat.le_refl _)]
    simp only [Nat.sub_self, List.getElem?_cons_zero, Option.getD_some]
    simp at hh
    rw [hh]
    rfl

/-- Reading the details. -/
theorem winDetail_run (conv : List (BitVec 16) → Bytes) (set i : Nat) (buf : Bytes) (h4 : 4 ≤ buf.length)
    (env : Prog.Env WReq WRep) (hist : Prog.Trace WReq WRep) :
    (∃ r, r.err = some (.errno 122) ∧ (r.n + 1023) / 1024 * 1024 % 2 ^ 32 = 0 ∧
      OutT.run env hist (winDetail conv set i buf) = (.panic, [(.setupDetail set i buf.length, r)])) ∨
    ∃ buf' t found, Details set i buf.length t buf'.length found ∧ 4 ≤ buf'.length ∧
      OutT.run env hist (winDetail conv set i buf) = (.ret (buf', found.map (fun b =>
        conv ((wideOf (b.drop 4)).takeWhile (fun c => c != 0#16)))), t) := by
  have hl : (copyAt buf 0 (leBytes 4 8)).length = buf.length := copyAt_length _ _ _ (by simpa using h4)
  unfold winDetail
  dsimp only
  rw [hl, OutT.run_ask_bind]
  obtain ⟨r, hr⟩ : ∃ r, r = env hist (.setupDetail set i buf.length) := ⟨_, rfl⟩
  rw [← hr]
  generalize hH : hist ++ [(WReq.setupDetail set i buf.length, r)] = H
  generalize hb1 : copyAt buf 0 (leBytes 4 8) = buf1 at hl
  have hround : (r.n + (if r.n % 1024 > 0 then 1024 - r.n % 1024 else 0)) % 2 ^ 32 = (r.n + 1023) / 1024 * 1024 % 2 ^ 32 := by
    congr 1
    split <;> omega
  rw [hround]
  by_cases he : r.err = some (.errno 122)
  · rw [if_pos he]
    generalize hsz : (r.n + 1023) / 1024 * 1024 % 2 ^ 32 = size'
    by_cases hz : size' = 0
    · rw [if_pos hz]
      exact .inl ⟨r, he, by rw [← hz, ← hsz], rfl⟩
    · rw [if_neg hz, OutT.run_ask_bind]
      obtain ⟨r2, hr2⟩ : ∃ r2, r2 = env H (.setupDetail set i size') := ⟨_, rfl⟩
      rw [← hr2]
      generalize hold : copyAt (zeros size') 0 (leBytes 4 8) = old
      have holdl : old.length = size' := by
        rw [← hold, copyAt_length _ _ _ (by simp [zeros]; omega)]
        simp [zeros]
      right
      cases he2 : r2.err with
      | none =>
        refine ⟨storeInto old r2.out, _, some (storeInto old r2.out), ?_, by rw [storeInto_length]; omega, rfl⟩
        rw [storeInto_length, holdl, storeInto_delivered]
        exact .again r r2 old size' he hsz.symm (by omega) he2 holdl
      | some e =>
        refine ⟨storeInto old r2.out, _, none, ?_, by rw [storeInto_length]; omega, rfl⟩
        rw [storeInto_length, holdl]
        exact .againFailed r r2 e size' he hsz.symm (by omega) he2
  · rw [if_neg he]
    right
    cases he2 : r.err with
    | none =>
      refine ⟨storeInto buf1 r.out, _, some (storeInto buf1 r.out), ?_, by rw [storeInto_length]; omega, rfl⟩
      rw [storeInto_length, hl, storeInto_delivered]
      exact .found r buf1 he2 hl
    | some e =>
      refine ⟨storeInto buf1 r.out, _, none, ?_, by rw [storeInto_length]; omega, rfl⟩
      rw [storeInto_length, hl]
      exact .failed r e he2 (fun h => he (by rw [he2, h]))

/-- A drive the factory opened has a driver behind its handle exactly if one accepted it. -/
theorem openByPath_dh (w : WinRun) (ds : List WinOpener) (path : Bytes) (env : Prog.Env WReq WRep)
    (hist t : Prog.Trace WReq WRep) (o : WinOpened)
    (hrun : OutT.run env hist (winOpenByPath w ds path) = (.ret (.ok o), t)) (k : WinDrv) (hk : o.drv = some k) :
    ∃ d, o.handle.dh = some d := by
  unfold winOpenByPath at hrun
  rw [OutT.run_bind] at hrun
  rcases hx : OutT.run env hist (winOpenDevice path) with ⟨x, tx⟩
  rw [hx] at hrun
  cases x with
  | panic => simp at hrun
  | running => simp at hrun
  | ret r =>
    cases r with
    | panic => simp [OutT.run_panic] at hrun
    | err e => simp [OutT.run_ret] at hrun
    | ok h =>
      dsimp only at hrun
      rw [OutT.run_bind] at hrun
      rcases hy : OutT.run env (hist ++ tx) (winOpenByHandle w ds h path) with ⟨y, ty⟩
      rw [hy] at hrun
      cases y with
      | panic => simp at hrun
      | running => simp at hrun
      | ret o' =>
        simp only [OutT.run_ret, Prod.mk.injEq, Out.ret.injEq, Res.ok.injEq] at hrun
        obtain ⟨rfl, -⟩ := hrun
        obtain ⟨_, _, _, _, _, _, _, hcase⟩ := win_open_by_handle w ds h path env _ ty o' hy
        rcases hcase with ⟨_, x, _, _, _, hd, _⟩ | ⟨_, hn, _⟩
        · exact ⟨_, hd⟩
        · rw [hk] at hn; cases hn

theorem winOpenByPath_no_panic_value (w : WinRun) (ds : List WinOpener) (path : Bytes) :
    OutT.Returns (fun x => x ≠ Res.panic) (winOpenByPath w ds path) := by
  unfold winOpenByPath
  refine OutT.returns_bind (OutT.returns_any _) (fun r _ => ?_)
  split
  · exact OutT.returns_panic
  · exact OutT.returns_ret (by simp)
  · exact OutT.returns_bind (OutT.returns_any _) (fun _ _ => OutT.returns_ret (by simp))

/-- Closing a drive closes its device if it has a driver. -/
theorem deferredClose_run_win (w : WinRun) (o : WinOpened) (h : ∀ k, o.drv = some k → ∃ d, o.handle.dh = some d)
    (env : Prog.Env WReq WRep) (hist : Prog.Trace WReq WRep) :
    ∃ tc, OutT.run env hist (o.deferredClose w) = (.ret (), tc) ∧
      tc.map (·.1) = (o.drv.map (fun k => WReq.closeHandle k.handle)).toList := by
  unfold WinOpened.deferredClose
  rw [OutT.run_bind]
  cases hk : o.drv with
  | none =>
    have e1 : OutT.run env hist (o.close w) = (.ret o, []) := by unfold WinOpened.close; rw [hk]; rfl
    rw [e1]
    exact ⟨[], rfl, rfl⟩
  | some k =>
    obtain ⟨d, hd⟩ := h k hk
    have e1 : ∃ o' r, OutT.run env hist (o.close w) = (.ret o', [(.closeHandle k.handle, r)]) := by
      unfold WinOpened.close
      rw [hk]
      unfold Handle.close
      rw [hd]
      exact ⟨_, _, rfl⟩
    obtain ⟨o', r, e1⟩ := e1
    rw [e1]
    exact ⟨[(WReq.closeHandle k.handle, r)], rfl, rfl⟩

/-- How the loop ended. -/
def LoopEnded (w : WinRun) (ds : List WinOpener) (conv : List (BitVec 16) → Bytes) (set : Nat) (env : Prog.Env WReq WRep)
    (x : Out (List WinOpened)) (i size : Nat) (hist T : Prog.Trace WReq WRep) (os : List WinOpened) : Prop :=
  (x = .ret os ∧ Devices (winOpenByPath w ds) conv env set i size hist T os) ∨
  (x = .panic ∧ DevicesPanic (winOpenByPath w ds) conv env set i size hist T os)

theorem loopEnded_more {w : WinRun} {ds : List WinOpener} {conv : List (BitVec 16) → Bytes} {set : Nat}
    {env : Prog.Env WReq WRep} {x y : Out (List WinOpened)} {i size size' : Nat} {hist t u : Prog.Trace WReq WRep}
    {o : Option WinOpened} {os : List WinOpened} (hd : Spec.Device (winOpenByPath w ds) conv env set i size hist t size' o)
    (h : LoopEnded w ds conv set env x (i + 1) size' (hist ++ t) u os) (hr : x = .ret os → y = .ret (o.toList ++ os))
    (hp : x = .panic → y = .panic) : LoopEnded w ds conv set env y i size hist (t ++ u) (o.toList ++ os) := by
  rcases h with ⟨a, b⟩ | ⟨a, b⟩
  · exact .inl ⟨hr a, .more _ _ _ _ _ _ _ _ hd b⟩
  · exact .inr ⟨hp a, .more _ _ _ _ _ _ _ _ hd b⟩

/-- The loop, whatever the drivers: what it does before the deferred calls, and these. -/
theorem winEnumLoop_run (w : WinRun) (ds : List WinOpener) (conv : List (BitVec 16) → Bytes) (set : Nat)
    (env : Prog.Env WReq WRep) : ∀ (fuel i : Nat) (buf : Bytes) (x : Out (List WinOpened)) (hist t : Prog.Trace WReq WRep),
    4 ≤ buf.length → OutT.run env hist (winEnumLoop w ds conv set fuel i buf) = (x, t) → x ≠ .running →
    ∃ T C os, t = T ++ C ∧ C.map (·.1) = (os.reverse.filterMap (·.drv)).map (fun k => WReq.closeHandle k.handle) ∧
      LoopEnded w ds conv set env x i buf.length hist T os := by
  intro fuel
  induction fuel with
  | zero =>
    intro i buf x hist t _ h hx
    simp only [winEnumLoop, OutT.run_running, Prod.mk.injEq] at h
    exact absurd h.1.symm hx
  | succ fuel ih =>
    intro i buf x hist t h4 h hx
    unfold winEnumLoop at h
    rw [OutT.run_ask_bind] at h
    obtain ⟨d, hd⟩ : ∃ d, d = env hist (.setupDevice set i) := ⟨_, rfl⟩
    rw [← hd] at h
    cases he : d.err with
    | some e =>
      rw [he] at h
      simp only [OutT.run_ret, Prod.mk.injEq] at h
      obtain ⟨rfl, rfl⟩ := h
      exact ⟨_, [], [], (List.append_nil _).symm, rfl, .inl ⟨rfl, .noMore i _ hist d e he⟩⟩
    | none =>
      rw [he] at h
      dsimp only at h
      rw [OutT.run_ask_bind] at h
      obtain ⟨f, hf⟩ : ∃ f, f = env (hist ++ [(.setupDevice set i, d)]) (.setupInterface set i) := ⟨_, rfl⟩
      rw [← hf] at h
      have hcat : hist ++ [(WReq.setupDevice set i, d)] ++ [(WReq.setupInterface set i, f)] =
          hist ++ [(WReq.setupDevice set i, d), (WReq.setupInterface set i, f)] := by simp
      rw [hcat] at h
      cases hfe : f.err with
      | some e =>
        rw [hfe] at h
        dsimp only at h
        by_cases h259 : e = .errno 259
        · rw [if_pos h259] at h
          rcases hl : OutT.run env (hist ++ [(WReq.setupDevice set i, d), (WReq.setupInterface set i, f)])
            (winEnumLoop w ds conv set fuel (i + 1) buf) with ⟨y, u⟩
          rw [hl] at h
          simp only [Prod.mk.injEq] at h
          obtain ⟨rfl, rfl⟩ := h
          obtain ⟨T, C, os, rfl, hC, hE⟩ := ih _ _ _ _ _ h4 hl hx
          exact ⟨[(.setupDevice set i, d), (.setupInterface set i, f)] ++ T, C, os, by simp, hC,
            loopEnded_more (o := none) (.noInterface d f he (by rw [hfe, h259])) hE id id⟩
        · rw [if_neg h259] at h
          simp only [OutT.run_ret, Prod.mk.injEq] at h
          obtain ⟨rfl, rfl⟩ := h
          exact ⟨_, [], [], (List.append_nil _).symm, rfl, .inl ⟨rfl, .stopped i _ hist d f e he hfe h259⟩⟩
      | none =>
        rw [hfe] at h
        dsimp only at h
        rw [OutT.run_bind] at h
        rcases winDetail_run conv set i buf h4 env (hist ++ [(WReq.setupDevice set i, d), (WReq.setupInterface set i, f)]) with
          ⟨r, h122, h0, hp⟩ | ⟨buf', td, found, hdet, h4', hp⟩
        · rw [hp] at h
          simp only [Prod.mk.injEq] at h
          obtain ⟨rfl, rfl⟩ := h
          exact ⟨_, [], [], (List.append_nil _).symm, rfl, .inr ⟨rfl, .size i _ hist d f r he hfe h122 h0⟩⟩
        · rw [hp] at h
          cases found with
          | none =>
            simp only [Option.map_none] at h
            rcases hl : OutT.run env (hist ++ [(WReq.setupDevice set i, d), (WReq.setupInterface set i, f)] ++ td)
              (winEnumLoop w ds conv set fuel (i + 1) buf') with ⟨y, u⟩
            rw [hl] at h
            simp only [Prod.mk.injEq] at h
            obtain ⟨rfl, rfl⟩ := h
            obtain ⟨T, C, os, rfl, hC, hE⟩ := ih _ _ _ _ _ h4' hl hx
            rw [List.append_assoc] at hE
            exact ⟨(.setupDevice set i, d) :: (.setupInterface set i, f) :: td ++ T, C, os, by simp, hC,
              loopEnded_more (o := none) (.noDetails d f td _ he hfe hdet) hE id id⟩
          | some b =>
            simp only [Option.map_some] at h
            rw [OutT.run_bind] at h
            generalize hpath : conv ((wideOf (b.drop 4)).takeWhile (fun c => c != 0#16)) = path at h
            rcases ho : OutT.run env (hist ++ [(WReq.setupDevice set i, d), (WReq.setupInterface set i, f)] ++ td)
              (winOpenByPath w ds path) with ⟨oo, uo⟩
            rw [ho] at h
            have ho' := ho
            rw [List.append_assoc, ← hpath] at ho'
            cases oo with
            | running =>
              simp only [Prod.mk.injEq] at h
              exact absurd h.1.symm hx
            | panic =>
              simp only [Prod.mk.injEq] at h
              obtain ⟨rfl, rfl⟩ := h
              refine ⟨_, [], [], (List.append_nil _).symm, rfl, .inr ⟨rfl, ?_⟩⟩
              have := DevicesPanic.opening i _ hist d f td uo _ b _ he hfe hdet (detailText b) ho'
              simpa [List.append_assoc] using this
            | ret v =>
              cases v with
              | panic => exact absurd rfl (OutT.returns_run (winOpenByPath_no_panic_value w ds path) env _ _ (by rw [ho]))
              | err e =>
                dsimp only at h
                rcases hl : OutT.run env (hist ++ [(WReq.setupDevice set i, d), (WReq.setupInterface set i, f)] ++ td ++ uo)
                  (winEnumLoop w ds conv set fuel (i + 1) buf') with ⟨y, u⟩
                rw [hl] at h
                simp only [Prod.mk.injEq] at h
                obtain ⟨rfl, rfl⟩ := h
                obtain ⟨T, C, os, rfl, hC, hE⟩ := ih _ _ _ _ _ h4' hl hx
                exact ⟨(.setupDevice set i, d) :: (.setupInterface set i, f) :: td ++ uo ++ T, C, os, by simp, hC,
                  loopEnded_more (o := none) (.notOpened d f td uo _ b _ e he hfe hdet (detailText b) ho')
                    (by simpa [List.append_assoc] using hE) id id⟩
              | ok o' =>
                dsimp only at h
                have hdev : Spec.Device (winOpenByPath w ds) conv env set i buf.length hist
                    ((.setupDevice set i, d) :: (.setupInterface set i, f) :: td ++ uo) buf'.length (some o') :=
                  .opened d f td uo _ b _ o' he hfe hdet (detailText b) ho'
                generalize hH : hist ++ [(WReq.setupDevice set i, d), (WReq.setupInterface set i, f)] ++ td ++ uo = H at h
                have hH' : hist ++ ((.setupDevice set i, d) :: (.setupInterface set i, f) :: td ++ uo) = H := by
                  rw [← hH]; simp
                rcases hl : OutT.run env H (winEnumLoop w ds conv set fuel (i + 1) buf') with ⟨y, u⟩
                obtain ⟨c, hc1, hc2⟩ := deferredClose_run_win w o' (openByPath_dh w ds _ env _ uo o' ho') env (H ++ u)
                have fin : ∀ (T C : Prog.Trace WReq WRep) (os : List WinOpened) (z : Out (List WinOpened)),
                    u = T ++ C → C.map (·.1) = (os.reverse.filterMap (·.drv)).map (fun k => WReq.closeHandle k.handle) →
                    LoopEnded w ds conv set env y (i + 1) buf'.length H T os → (y = .ret os → z = .ret (o' :: os)) →
                    (y = .panic → z = .panic) →
                    ∃ T' C' os', (.setupDevice set i, d) :: (.setupInterface set i, f) :: (td ++ (uo ++ (u ++ c))) = T' ++ C' ∧
                      C'.map (·.1) = (os'.reverse.filterMap (·.drv)).map (fun k => WReq.closeHandle k.handle) ∧
                      LoopEnded w ds conv set env z i buf.length hist T' os' := by
                  intro T C os z hu hC hE hz hz'
                  refine ⟨(.setupDevice set i, d) :: (.setupInterface set i, f) :: td ++ uo ++ T, C ++ c, o' :: os,
                    by rw [hu]; simp, ?_, ?_⟩
                  · rw [List.map_append, hC, hc2, List.reverse_cons, List.filterMap_append]
                    cases hk : o'.drv <;> simp [hk]
                  · exact loopEnded_more (o := some o') hdev (by rw [hH']; exact hE) hz hz'
                rw [OutT.run_bind] at h
                cases y with
                | running =>
                  rw [OutT.run_defer_running env H hl] at h
                  simp only [Prod.mk.injEq] at h
                  exact absurd h.1.symm hx
                | panic =>
                  rw [OutT.run_defer_panic env H hl hc1] at h
                  simp only [Prod.mk.injEq] at h
                  obtain ⟨rfl, rfl⟩ := h
                  obtain ⟨T, C, os, hu, hC, hE⟩ := ih _ _ _ _ _ h4' hl (by simp)
                  exact fin T C os .panic hu hC hE (fun h => by cases h) id
                | ret os =>
                  rw [OutT.run_defer_ret env H hl hc1] at h
                  simp only [OutT.run_ret, List.append_nil, Prod.mk.injEq] at h
                  obtain ⟨rfl, rfl⟩ := h
                  obtain ⟨T, C, os', hu, hC, hE⟩ := ih _ _ _ _ _ h4' hl (by simp)
                  refine fin T C os' _ hu hC hE (fun h => ?_) (fun h => by cases h)
                  cases h
                  rfl

theorem devices_opened {open' : Bytes → WinM (Res WinOpened)} {conv : List (BitVec 16) → Bytes} {env : Prog.Env WReq WRep}
    {set i size : Nat} {hist t : Prog.Trace WReq WRep} {os : List WinOpened}
    (h : Devices open' conv env set i size hist t os) :
    ∀ o ∈ os, ∃ path hist' t', OutT.run env hist' (open' path) = (.ret (.ok o), t') := by
  induction h with
  | noMore => simp
  | stopped => simp
  | more i size size' hist t u o os hd hrest ih =>
    intro x hx
    rw [List.mem_append] at hx
    rcases hx with hx | hx
    · cases hd with
      | noInterface => simp at hx
      | noDetails => simp at hx
      | notOpened => simp at hx
      | opened d f t u size' buf text o h1 h2 h3 h4 h5 =>
        simp at hx
        subst hx
        exact ⟨_, _, _, h5⟩
    · exact ih x hx

/-- `EnumDrives` beyond the device list: the loop, its deferred closes, and the device list given back. -/
theorem winEnumDrives_run (w : WinRun) (ds : List WinOpener) (conv : List (BitVec 16) → Bytes) (fuel : Nat)
    (env : Prog.Env WReq WRep) (hist t : Prog.Trace WReq WRep) (x : Out (Res (List WinOpened)))
    (hrun : OutT.run env hist (winEnumDrives w ds conv fuel) = (x, t)) (hx : x ≠ .running) :
    ∃ c : WRep,
      (∃ e, c.err = some e ∧ x = .ret (.err e) ∧ t = [(.setupClass, c)]) ∨
      (c.err = none ∧ ∃ os td tc y r, t = (.setupClass, c) :: td ++ tc ++ [(.setupDestroy c.handle, r)] ∧
        (y = .ret os → x = .ret (.ok os)) ∧ (y = .panic → x = .panic) ∧
        LoopEnded w ds conv c.handle env y 0 1024 (hist ++ [(.setupClass, c)]) td os ∧
        tc.map (·.1) = (os.reverse.filterMap (·.drv)).map (fun k => WReq.closeHandle k.handle)) := by
  unfold winEnumDrives at hrun
  rw [OutT.run_ask_bind] at hrun
  obtain ⟨c, hc⟩ : ∃ c, c = env hist .setupClass := ⟨_, rfl⟩
  rw [← hc] at hrun
  refine ⟨c, ?_⟩
  cases he : c.err with
  | some e =>
    rw [he] at hrun
    simp only [OutT.run_ret, Prod.mk.injEq] at hrun
    exact .inl ⟨e, rfl, hrun.1.symm, hrun.2.symm⟩
  | none =>
    right
    refine ⟨rfl, ?_⟩
    rw [he] at hrun
    dsimp only at hrun
    rw [OutT.run_bind] at hrun
    have h1024 : (zeros 1024).length = 1024 := List.length_replicate
    generalize hz : zeros 1024 = z at hrun h1024
    rcases hl : OutT.run env (hist ++ [(WReq.setupClass, c)]) (winEnumLoop w ds conv c.handle fuel 0 z) with ⟨y, u⟩
    obtain ⟨r, hr⟩ : ∃ r, r = env (hist ++ [(WReq.setupClass, c)] ++ u) (.setupDestroy c.handle) := ⟨_, rfl⟩
    have hdes : OutT.run env (hist ++ [(WReq.setupClass, c)] ++ u) (winDestroy c.handle) =
        (.ret (), [(.setupDestroy c.handle, r)]) := by
      unfold winDestroy
      rw [OutT.run_ask_bind, ← hr]
      rfl
    cases y with
    | running =>
      rw [OutT.run_defer_running env _ hl] at hrun
      simp only [Prod.mk.injEq] at hrun
      exact absurd hrun.1.symm hx
    | panic =>
      rw [OutT.run_defer_panic env _ hl hdes] at hrun
      simp only [Prod.mk.injEq] at hrun
      obtain ⟨T, C, os, rfl, hC, hE⟩ := winEnumLoop_run w ds conv c.handle env fuel 0 z _ _ u (by omega) hl (by simp)
      rw [h1024] at hE
      refine ⟨os, T, C, .panic, r, ?_, (fun h => by cases h), (fun _ => hrun.1.symm), hE, hC⟩
      rw [← hrun.2]
      simp
    | ret os =>
      rw [OutT.run_defer_ret env _ hl hdes] at hrun
      simp only [OutT.run_ret, List.append_nil, Prod.mk.injEq] at hrun
      obtain ⟨T, C, os', rfl, hC, hE⟩ := winEnumLoop_run w ds conv c.handle env fuel 0 z _ _ u (by omega) hl (by simp)
      rw [h1024] at hE
      refine ⟨os', T, C, .ret os, r, ?_, ?_, (fun h => by cases h), hE, hC⟩
      · rw [← hrun.2]
        simp
      · intro h
        cases h
        exact hrun.1.symm

/-- C107: enumerating drives. If Windows gives no device list, its error is returned. Otherwise the result has no error and
lists the drives of the devices in order, as `Devices` says: a device that has no disk interface, whose details cannot be
read or that cannot be opened is left out, the first interface error ends the list. Then the drives are closed, last one
first, as far as they have a driver, and the device list is given back. -/
theorem win_enum_drives (w : WinRun) (ds : List WinOpener) (conv : List (BitVec 16) → Bytes) (fuel : Nat)
    (env : Prog.Env WReq WRep) (hist t : Prog.Trace WReq WRep) (res : Res (List WinOpened))
    (hrun : OutT.run env hist (winEnumDrives w ds conv fuel) = (.ret res, t)) :
    ∃ c : WRep,
      (∃ e, c.err = some e ∧ res = .err e ∧ t = [(.setupClass, c)]) ∨
      (c.err = none ∧ ∃ os td tc x, res = .ok os ∧ t = (.setupClass, c) :: td ++ tc ++ [(.setupDestroy c.handle, x)] ∧
        Devices (winOpenByPath w ds) conv env c.handle 0 1024 (hist ++ [(.setupClass, c)]) td os ∧
        tc.map (·.1) = (os.reverse.filterMap (·.drv)).map (fun k => WReq.closeHandle k.handle)) := by
  obtain ⟨c, ⟨e, h1, h2, h3⟩ | ⟨h1, os, td, tc, y, r, h2, h3, h4, h5, h6⟩⟩ :=
    winEnumDrives_run w ds conv fuel env hist t _ hrun (by simp)
  · cases h2
    exact ⟨c, .inl ⟨e, h1, rfl, h3⟩⟩
  · rcases h5 with ⟨a, b⟩ | ⟨a, -⟩
    · have := h3 a
      cases this
      exact ⟨c, .inr ⟨h1, os, td, tc, r, rfl, h2, b, h6⟩⟩
    · have := h4 a
      cases this

/-- C113: if the enumeration panics, it does so at one device: Windows named a buffer size that becomes 0, or opening the
drive panicked. The drives opened before are closed, each once and the last first, as far as they have a driver, and the
device list is given back before the panic goes on. -/
theorem win_enum_panic (w : WinRun) (ds : List WinOpener) (conv : List (BitVec 16) → Bytes) (fuel : Nat)
    (env : Prog.Env WReq WRep) (hist t : Prog.Trace WReq WRep)
    (hrun : OutT.run env hist (winEnumDrives w ds conv fuel) = (.panic, t)) :
    ∃ (c : WRep) (os : List WinOpened) (td tc : Prog.Trace WReq WRep) (x : WRep), c.err = none ∧
      t = (.setupClass, c) :: td ++ tc ++ [(.setupDestroy c.handle, x)] ∧
      DevicesPanic (winOpenByPath w ds) conv env c.handle 0 1024 (hist ++ [(.setupClass, c)]) td os ∧
      tc.map (·.1) = (os.reverse.filterMap (·.drv)).map (fun k => WReq.closeHandle k.handle) := by
  obtain ⟨c, ⟨e, -, h2, -⟩ | ⟨h1, os, td, tc, y, r, h2, h3, h4, h5, h6⟩⟩ :=
    winEnumDrives_run w ds conv fuel env hist t _ hrun (by simp)
  · cases h2
  · rcases h5 with ⟨a, -⟩ | ⟨-, b⟩
    · have := h3 a
      cases this
    · exact ⟨c, os, td, tc, r, h1, h2, b, h6⟩

/-- The loop ends if Windows has only `n` devices. -/
theorem winEnumLoop_ends (w : WinRun) (b b' : Nat) (conv : List (BitVec 16) → Bytes) (set n : Nat)
    (env : Prog.Env WReq WRep) (hn : ∀ hist i, n ≤ i → (env hist (.setupDevice set i)).err ≠ none) :
    ∀ (fuel i : Nat) (buf : Bytes) (hist : Prog.Trace WReq WRep), n < fuel + i →
    (OutT.run env hist (winEnumLoop w (winOpeners b b') conv set fuel i buf)).1 ≠ .running ∨ fuel = 0 := by
  intro fuel
  induction fuel with
  | zero => intros; exact .inr rfl
  | succ fuel ih =>
    intro i buf hist hlt
    left
    unfold winEnumLoop
    rw [OutT.run_ask_bind]
    obtain ⟨d, hd⟩ : ∃ d, d = env hist (.setupDevice set i) := ⟨_, rfl⟩
    rw [← hd]
    cases he : d.err with
    | some e => simp [OutT.run_ret]
    | none =>
      have hin : i < n := by
        rcases Nat.lt_or_ge i n with h | h
        · exact h
        · exact absurd (by rw [← hd]; exact he) (hn hist i h)
      have next : ∀ buf hist,
          (OutT.run env hist (winEnumLoop w (winOpeners b b') conv set fuel (i + 1) buf)).1 ≠ .running := by
        intro buf hist
        rcases ih (i + 1) buf hist (by omega) with h | h
        · exact h
        · omega
      have bnd : ∀ {α : Type} (p : WinM α) (f : α → WinM (List WinOpened)), OutT.Halts p →
          (∀ a hist, (OutT.run env hist (f a)).1 ≠ .running) → ∀ hist, (OutT.run env hist (p >>= f)).1 ≠ .running := by
        intro α p f hp hf hist
        rw [OutT.run_bind]
        have hh := OutT.halts_run hp env hist
        rcases hr : OutT.run env hist p with ⟨o, t⟩
        rw [hr] at hh
        cases o with
        | panic => simp
        | running => exact absurd rfl hh
        | ret a =>
          have := hf a (hist ++ t)
          dsimp only
          rcases hr2 : OutT.run env (hist ++ t) (f a) with ⟨o2, t2⟩
          rw [hr2] at this
          exact this
      dsimp only
      refine bnd _ _ (OutT.halts_ask _) (fun f hist => ?_) _
      split
      · split
        · exact next _ _
        · simp [OutT.run_ret]
      · refine bnd _ _ (winDetail_halts conv set i buf) (fun x hist => ?_) _
        obtain ⟨buf', path⟩ := x
        cases path with
        | none => exact next _ _
        | some path =>
          dsimp only
          refine bnd _ _ (winOpenByPath_halts w b b' path) (fun x hist => ?_) _
          cases x with
          | panic => simp [OutT.run_panic]
          | err e => exact next _ _
          | ok o =>
            dsimp only
            rw [OutT.run_bind]
            have hdf := OutT.run_defer_ne_running env hist (next buf' hist)
              (fun hist => OutT.halts_run (deferredClose_halts w o) env hist)
            rcases hr : OutT.run env hist
              (OutT.defer (winEnumLoop w (winOpeners b b') conv set fuel (i + 1) buf') (o.deferredClose w)) with ⟨y, u⟩
            rw [hr] at hdf
            cases y with
            | panic => simp
            | running => exact absurd rfl hdf
            | ret os => simp [OutT.run_ret]

/-- C107: it ends as soon as Windows reports the end of its list: with `n` devices, after at most `n + 1` rounds. -/
theorem win_enum_ends (w : WinRun) (b b' : Nat) (conv : List (BitVec 16) → Bytes) (n fuel : Nat)
    (env : Prog.Env WReq WRep) (hn : ∀ hist set i, n ≤ i → (env hist (.setupDevice set i)).err ≠ none) (hf : n < fuel)
    (hist : Prog.Trace WReq WRep) :
    (OutT.run env hist (winEnumDrives w (winOpeners b b') conv fuel)).1 ≠ .running := by
  unfold winEnumDrives
  rw [OutT.run_ask_bind]
  obtain ⟨c, hc⟩ : ∃ c, c = env hist .setupClass := ⟨_, rfl⟩
  rw [← hc]
  cases he : c.err with
  | some e => simp [OutT.run_ret]
  | none =>
    dsimp only
    rw [OutT.run_bind]
    have hl : (OutT.run env (hist ++ [(WReq.setupClass, c)])
        (winEnumLoop w (winOpeners b b') conv c.handle fuel 0 (zeros 1024))).1 ≠ .running := by
      rcases winEnumLoop_ends w b b' conv c.handle n env (fun hist i => hn hist c.handle i) fuel 0 (zeros 1024)
        (hist ++ [(WReq.setupClass, c)]) (by omega) with h | h
      · exact h
      · omega
    generalize zeros 1024 = z at hl ⊢
    have hdf := OutT.run_defer_ne_running (d := winDestroy c.handle) env _ hl (fun hist => OutT.halts_run
      (OutT.halts_bind (OutT.halts_ask _) (fun _ => OutT.halts_ret _)) env hist)
    rcases hr : OutT.run env (hist ++ [(WReq.setupClass, c)])
      (OutT.defer (winEnumLoop w (winOpeners b b') conv c.handle fuel 0 z) (winDestroy c.handle)) with ⟨o, t⟩
    rw [hr] at hdf
    cases o with
    | panic => simp
    | running => exact absurd rfl hdf
    | ret os => simp [OutT.run_ret]

/-! ### The handles of an enumeration -/

theorem details_handles {set i size size' : Nat} {t : Prog.Trace WReq WRep} {f : Option Bytes}
    (h : Details set i size t size' f) : handlesOpened t = [] ∧ handlesClosed t = [] := by
  cases h <;> exact ⟨rfl, rfl⟩

/-- The handles that stay open after enumerating: per drive, with the handle its device was opened by. -/
theorem devices_handles (w : WinRun) (b b' : Nat) {conv : List (BitVec 16) → Bytes} {env : Prog.Env WReq WRep}
    {set i size : Nat} {hist t : Prog.Trace WReq WRep} {os : List WinOpened}
    (h : Devices (winOpenByPath w (winOpeners b b')) conv env set i size hist t os) :
    ∃ hs : List Nat, hs.length = os.length ∧
      (∀ x ∈ hs.zip os, ∀ k, x.2.drv = some k → x.1 = k.handle) ∧
      (handlesOpened t).Perm (handlesClosed t ++ (hs.zip os).flatMap (fun x => x.1 :: keptOf x.2)) := by
  induction h with
  | noMore => exact ⟨[], rfl, by simp, List.Perm.refl _⟩
  | stopped => exact ⟨[], rfl, by simp, List.Perm.refl _⟩
  | more i size size' hist t u o os hd hrest ih =>
    obtain ⟨hs, h1, h2, h3⟩ := ih
    rw [handlesOpened_append, handlesClosed_append]
    cases hd with
    | noInterface d f _ _ => exact ⟨hs, h1, h2, h3⟩
    | noDetails d f t size' _ _ hdet =>
      obtain ⟨e1, e2⟩ := details_handles hdet
      refine ⟨hs, h1, h2, ?_⟩
      have e3 : handlesOpened ((WReq.setupDevice set i, d) :: (WReq.setupInterface set i, f) :: t) = handlesOpened t := rfl
      have e4 : handlesClosed ((WReq.setupDevice set i, d) :: (WReq.setupInterface set i, f) :: t) = handlesClosed t := rfl
      rw [e3, e4, e1, e2]
      exact h3
    | notOpened d f t u' size' buf text e _ _ hdet _ hrun =>
      obtain ⟨e1, e2⟩ := details_handles hdet
      obtain ⟨r1, r2⟩ := (win_open_handles w b b' (conv text) env _ u').1 e hrun
      refine ⟨hs, h1, h2, ?_⟩
      have e3 : handlesOpened ((WReq.setupDevice set i, d) :: (WReq.setupInterface set i, f) :: t ++ u') =
        handlesOpened (t ++ u') := rfl
      have e4 : handlesClosed ((WReq.setupDevice set i, d) :: (WReq.setupInterface set i, f) :: t ++ u') =
        handlesClosed (t ++ u') := rfl
      rw [e3, e4, handlesOpened_append, handlesClosed_append, e1, e2, r1, r2]
      exact h3
    | opened d f t u' size' buf text o _ _ hdet _ hrun =>
      obtain ⟨e1, e2⟩ := details_handles hdet
      obtain ⟨h, r1, r2⟩ := (win_open_handles w b b' (conv text) env _ u').2 o hrun
      refine ⟨h :: hs, by simp [h1], ?_, ?_⟩
      · intro x hx k hk
        simp only [Option.toList_some, List.cons_append, List.nil_append, List.zip_cons_cons, List.mem_cons] at hx
        rcases hx with rfl | hx
        · obtain ⟨d', hd'⟩ := openByPath_dh w _ (conv text) env _ u' o hrun k hk
          obtain ⟨o', tc, q1, -, q3⟩ := r2 []
          rw [if_neg (by rw [hk]; simp)] at q3
          have e5 : handlesClosed (OutT.run env [] (o.close w)).2 = [k.handle] := by
            unfold WinOpened.close
            dsimp only at hk
            rw [hk]
            unfold Handle.close
            rw [hd']
            rfl
          rw [q1] at e5
          rw [q3] at e5
          simpa using e5
        · exact h2 x hx k hk
      · have e3 : handlesOpened ((WReq.setupDevice set i, d) :: (WReq.setupInterface set i, f) :: t ++ u') =
          handlesOpened (t ++ u') := rfl
        have e4 : handlesClosed ((WReq.setupDevice set i, d) :: (WReq.setupInterface set i, f) :: t ++ u') =
          handlesClosed (t ++ u') := rfl
        rw [e3, e4, handlesOpened_append, handlesClosed_append, e1, e2, r1]
        simp only [Option.toList_some, List.cons_append, List.nil_append, List.zip_cons_cons, List.flatMap_cons]
        have p1 : (h :: (handlesClosed u' ++ keptOf o)).Perm (handlesClosed u' ++ h :: keptOf o) :=
          (List.perm_middle).symm
        have p2 := p1.append h3
        refine p2.trans ?_
        simp only [List.append_assoc]
        refine List.Perm.append_left _ ?_
        generalize (hs.zip os).flatMap (fun x => x.1 :: keptOf x.2) = rest
        have p3 : (h :: keptOf o ++ handlesClosed u).Perm (handlesClosed u ++ h :: keptOf o) := List.perm_append_comm
        have p4 := p3.append_right rest
        simpa only [List.append_assoc, List.cons_append] using p4

/-- C107: the handles after an enumeration. Every handle opened is closed exactly once, except, for each drive listed, those
its driver keeps, and the handle of the drive itself if no driver accepted it. -/
theorem win_enum_handles (w : WinRun) (b b' : Nat) (conv : List (BitVec 16) → Bytes) (fuel : Nat)
    (env : Prog.Env WReq WRep) (hist t : Prog.Trace WReq WRep) (os : List WinOpened)
    (hrun : OutT.run env hist (winEnumDrives w (winOpeners b b') conv fuel) = (.ret (.ok os), t)) :
    ∃ hs : List Nat, hs.length = os.length ∧
      (handlesOpened t).Perm (handlesClosed t ++
        (hs.zip os).flatMap (fun x => (if x.2.drv = none then [x.1] else []) ++ keptOf x.2)) := by
  obtain ⟨c, ⟨e, -, h, -⟩ | ⟨-, os', td, tc, x, h, rfl, hdev, htc⟩⟩ := win_enum_drives w _ conv fuel env hist t _ hrun
  · cases h
  · cases h
    obtain ⟨hs, h1, h2, h3⟩ := devices_handles w b b' hdev
    refine ⟨hs, h1, ?_⟩
    have tcall : ∀ (l : List WinDrv) (tc : Prog.Trace WReq WRep),
        tc.map (·.1) = l.map (fun k => WReq.closeHandle k.handle) →
        handlesOpened tc = [] ∧ handlesClosed tc = l.map (·.handle) := by
      intro l
      induction l with
      | nil => intro tc h; simp at h; subst h; exact ⟨rfl, rfl⟩
      | cons k l ih =>
        intro tc h
        cases tc with
        | nil => simp at h
        | cons y tc =>
          simp only [List.map_cons, List.cons.injEq] at h
          obtain ⟨q1, q2⟩ := ih tc h.2
          obtain ⟨q, r⟩ := y
          obtain ⟨rfl, -⟩ := h
          exact ⟨q1, by rw [List.map_cons, ← q2]; rfl⟩
    obtain ⟨c1, c2⟩ := tcall _ _ htc
    have e1 : handlesOpened ((WReq.setupClass, c) :: td ++ tc ++ [(WReq.setupDestroy c.handle, x)]) =
        handlesOpened td ++ handlesOpened tc ++ [] := by
      rw [← handlesOpened_append]
      rw [show (WReq.setupClass, c) :: td ++ tc ++ [(WReq.setupDestroy c.handle, x)] =
        (WReq.setupClass, c) :: ((td ++ tc) ++ [(WReq.setupDestroy c.handle, x)]) from rfl]
      show handlesOpened ((td ++ tc) ++ [(WReq.setupDestroy c.handle, x)]) = _
      rw [handlesOpened_append]
      rfl
    have e2 : handlesClosed ((WReq.setupClass, c) :: td ++ tc ++ [(WReq.setupDestroy c.handle, x)]) =
        handlesClosed td ++ handlesClosed tc ++ [] := by
      rw [← handlesClosed_append]
      show handlesClosed ((td ++ tc) ++ [(WReq.setupDestroy c.handle, x)]) = _
      rw [handlesClosed_append]
      rfl
    rw [e1, e2, c1, c2]
    simp only [List.append_nil]
    have key : ∀ (os : List WinOpened) (hs : List Nat), hs.length = os.length →
        (∀ x ∈ hs.zip os, ∀ k, x.2.drv = some k → x.1 = k.handle) →
        ((hs.zip os).flatMap (fun x => x.1 :: keptOf x.2)).Perm
          ((os.filterMap (·.drv)).map (·.handle) ++
            (hs.zip os).flatMap (fun x => (if x.2.drv = none then [x.1] else []) ++ keptOf x.2)) := by
      intro os
      induction os with
      | nil => intro hs _ _; simp
      | cons o os ih =>
        intro hs hl hk
        cases hs with
        | nil => simp at hl
        | cons h hs =>
          have ih := ih hs (by simpa using hl) (fun x hx => hk x (by simp [hx]))
          simp only [List.zip_cons_cons, List.flatMap_cons]
          cases ho : o.drv with
          | none =>
            simp only [List.filterMap_cons, ho, if_true]
            have p : (h :: keptOf o ++ (List.flatMap (fun x => x.1 :: keptOf x.2) (hs.zip os))).Perm
              (h :: keptOf o ++ ((os.filterMap (·.drv)).map (·.handle) ++ (hs.zip os).flatMap
                (fun x => (if x.2.drv = none then [x.1] else []) ++ keptOf x.2))) := List.Perm.append_left _ ih
            refine p.trans ?_
            rw [← List.append_assoc, ← List.append_assoc]
            exact List.Perm.append_right _ List.perm_append_comm
          | some k =>
            have hh : h = k.handle := hk (h, o) (by simp) k ho
            simp only [List.filterMap_cons, ho, List.map_cons, ← hh]
            simp only [reduceCtorEq, if_false, List.nil_append, List.cons_append]
            refine List.Perm.cons _ ?_
            have p := List.Perm.append_left (keptOf o) ih
            refine p.trans ?_
            rw [← List.append_assoc, ← List.append_assoc]
            exact List.Perm.append_right _ List.perm_append_comm
    refine h3.trans ?_
    rw [List.append_assoc]
    refine List.Perm.append_left _ ?_
    refine (key os hs h1 h2).trans ?_
    refine List.Perm.append_right _ ?_
    refine List.Perm.map _ ?_
    rw [List.filterMap_reverse]
    exact (List.reverse_perm _).symm

/-! ### Samples -/

/-- Three devices: a SCSI drive, something without a disk interface, a drive no driver accepts. -/
def sampleWindows : Prog.Env WReq WRep := fun hist q => match q with
  | .setupClass => { handle := 7 }
  | .setupDevice _ i => if i < 3 then {} else { err := some (.errno 259) }
  | .setupInterface _ i => if i = 1 then { err := some (.errno 259) } else {}
  | .setupDetail _ i _ => { out := leBytes 4 8 ++ [BitVec.ofNat 8 (0x41 + i), 0, 0, 0] }
  | .openDevice _ => { handle := 100 + hist.length }
  | .ioctl h code inb _ _ =>
    if code = 0x2d1080 then (if h = 104 then { out := zeros 4 ++ leBytes 4 5 } else { err := some (.errno 1) })
    else if code = 0x700a0 then { out := zeros 24 ++ leBytes 8 1000000 }
    else if code = 0x70050 then
      { n := 192, out := leBytes 4 0 ++ leBytes 4 1 ++ leBytes 4 0x12345678 ++ zeros 36 ++ (leBytes 4 0 ++ zeros 4 ++
        leBytes 8 1048576 ++ leBytes 8 4096 ++ zeros 8 ++ [7, 1]) }
    else if code = 0x2d1400 then
      if inb.take 1 = [49] then { err := some (.errno 1) }
      else { n := 60, out := zeros 8 ++ [5, 0, 1, 0] ++ leBytes 4 0 ++ leBytes 4 40 ++ leBytes 4 0 ++ leBytes 4 44 ++ zeros 12 ++
        ascii " CD" ++ [0] ++ ascii "S1 " ++ [0] }
    else if code = 0x4d014 ∧ h = 104 then {}
    else { err := some (.errno 1) }
  | _ => {}

def sampleRun : WinRun := { base := 0, base' := 0, addr := 0, behind := fun _ => 0, beyond := fun _ => 0 }
def sampleConv (t : List (BitVec 16)) : Bytes := t.map (BitVec.setWidth 8)

/-- C107: two drives; the first is closed, the one without a driver is not; the device list is given back at the end. -/
example : (match OutT.run sampleWindows [] (winEnumDrives sampleRun (winOpeners 0 0) sampleConv 9) with
    | (.ret (.ok os), t) => (os.map (fun o => (o.devicePath, o.drv, o.devNum)), os.map (fun o => (o.driverName, o.driveType)),
        handlesOpened t, handlesClosed t, t.getLast?.map (·.1))
    | _ => ([], [], [], [], none)) =
    ([(ascii "A", some (.scsi 104), 5), (ascii "C", none, 0)], [(ascii "WindowsScsiDriver", 0), ([], 5)],
     [104, 117], [104], some (.setupDestroy 7)) := by decide +kernel
example : ∀ hist set i, 3 ≤ i → (sampleWindows hist (.setupDevice set i)).err ≠ none := by
  intro hist set i h
  show (if i < 3 then ({} : WRep) else { err := some (.errno 259) }).err ≠ none
  rw [if_neg (by omega)]
  simp
/-- C113: the third device needs a detail buffer of size 0 (2^32 bytes, rounded in 32 bits): the first drive is closed and the
device list given back. -/
example : (match OutT.run (fun h q => match q with
        | .setupDetail _ 2 _ => { err := some (.errno 122), n := 4294967295 }
        | _ => sampleWindows h q) [] (winEnumDrives sampleRun (winOpeners 0 0) sampleConv 9) with
    | (.panic, t) => (handlesOpened t, handlesClosed t, t.getLast?.map (·.1))
    | _ => ([], [], none)) = ([104], [104], some (.setupDestroy 7)) := by decide +kernel
/-- C106: a path with a NUL is refused; the handle of a drive with a driver is closed once, without one never; the miniport
driver keeps a second one. -/
example : (match OutT.run sampleWindows [] (winOpenByPath sampleRun (winOpeners 0 0) [0x41, 0]) with
      | (.ret (.err e), t) => (e, t.length)
      | _ => (.eof, 9)) = (.errno 22, 0) ∧
    (match OutT.run sampleWindows (List.replicate 4 (.setupClass, {})) (winOpenByPath sampleRun (winOpeners 0 0) [0x41]) with
      | (.ret (.ok o), t) => (keptOf o, handlesOpened t, handlesClosed t,
          handlesClosed (OutT.run sampleWindows [] (o.close sampleRun)).2)
      | _ => ([], [], [], [])) = ([], [104], [], [104]) ∧
    (match OutT.run sampleWindows [] (winOpenByPath sampleRun (winOpeners 0 0) [0x41]) with
      | (.ret (.ok o), t) => (keptOf o, handlesOpened t, handlesClosed t,
          handlesClosed (OutT.run sampleWindows [] (o.close sampleRun)).2)
      | _ => ([], [], [], [])) = ([], [100], [], []) ∧
    keptOf { drv := some (.nvmeWin 3 4) } = [4] := by decide +kernel
/-- C75: the third driver is the first to accept. -/
example : (match OutT.run sampleWindows [] (winFirst (winOpeners 0 0) 104) with
    | (.ret (some x), t) => (some x.1, t.length)
    | _ => (none, 0)) = (some (.scsi 104), 3) := by decide +kernel
/-- C103: number 5, size, one active partition of type 7 on an MBR disk. -/
example : (OutT.run sampleWindows [] (winBasicInfo 104)).1 = .ret
    { devNum := some 5, diskSize := some 1000000, style := 1, mbrSignature := 0x12345678,
      partitions := [{ diskNumber := 5, start := 1048576, length := 4096, style := 0, mbrInfo := some (7, true) }] } := by
  decide +kernel
/-- C104: the texts lose their spaces. -/
example : (OutT.run sampleWindows [] (winStorageQuery 104 (fun _ => 0))).1 = .ret (.ok
    { deviceType := 5, typeModifier := 0, removable := true, vendorId := [], productId := ascii "CD", revision := [],
      serial := ascii "S1", busType := 0 }) := by decide +kernel
/-- C105: without a number the drive is reported as number 0. -/
example : (match (OutT.run sampleWindows [] (winOpenByHandle sampleRun (winOpeners 0 0) 9 [0x41])).1 with
    | .ret o => (o.drv, o.devNum, o.removable, o.totalCapacity, o.partitions.map (·.diskNumber))
    | _ => (none, 9, 0, 0, [])) = (none, 0, 1, 1000000, [0xffffffff]) := by decide +kernel

end Dparm
