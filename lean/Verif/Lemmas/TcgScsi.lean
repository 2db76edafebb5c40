import Verif.Lemmas.TcgSystem
import Verif.Lemmas.LinuxSystem
/-!
# One security command on a SCSI generic drive
-/
namespace Dparm
open Spec

theorem onLinux_drvSg {α : Type} (fd : Nat) (q : DrvReq) (k : DrvRep → DrvM α) :
    onLinux (onDriver 1 fd (OutT.ask q >>= k)) = (drvSg fd q >>= fun r => onLinux (onDriver 1 fd (k r.drv))) := rfl

/-- System calls of the layer below. -/
inductive SysWire : Prog.Trace LReq LRep → Prog.Trace AReq ARep → Prop
  | nil : SysWire [] []
  | cons {q : LReq} {a : ARep} {T t} (h : SysWire T t) : SysWire ((q, a.sys) :: T) ((.sys q, a) :: t)

theorem sysWire_of_chunks {env : Prog.Env AReq ARep} {T : Prog.Trace LReq LRep} {t : Prog.Trace AReq ARep}
    (h : OutT.Chunks sysCall env T t) : SysWire T t := by
  induction h with
  | nil => exact .nil
  | cons hc ht ih =>
    unfold sysCall at hc
    rw [OutT.run_ask_bind] at hc
    simp only [OutT.run_ret, Prod.mk.injEq, Out.ret.injEq] at hc
    obtain ⟨rfl, rfl⟩ := hc
    exact .cons ih

theorem sysCall_run {α : Type} (p : LM α) (env : Prog.Env AReq ARep) (h : Prog.Trace AReq ARep) :
    ∃ env' : Prog.Env LReq LRep, (OutT.run env h (OutT.interp sysCall p)).1 = (OutT.run env' [] p).1 ∧
      SysWire (OutT.run env' [] p).2 (OutT.run env h (OutT.interp sysCall p)).2 := by
  obtain ⟨h1, h2⟩ := OutT.interp_chunks (A := fun _ => True) (B := fun _ _ => True) sysCall env {} h
    (fun q _ h => ⟨_, by unfold sysCall; rw [OutT.run_ask_bind]; rfl, trivial⟩) (p := p) (OutT.within_of_asks (OutT.asks_true p))
  exact ⟨_, h1, sysWire_of_chunks h2⟩

theorem SysWire.append_inv {T₂ : Prog.Trace LReq LRep} : ∀ {T₁ : Prog.Trace LReq LRep} {t : Prog.Trace AReq ARep},
    SysWire (T₁ ++ T₂) t → ∃ t₁ t₂, t = t₁ ++ t₂ ∧ SysWire T₁ t₁ ∧ SysWire T₂ t₂ := by
  intro T₁
  induction T₁ with
  | nil => intro t h; exact ⟨[], t, rfl, .nil, h⟩
  | cons x T₁ ih =>
    intro t h
    rw [List.cons_append] at h
    cases h with
    | cons h =>
      obtain ⟨t₁, t₂, rfl, h1, h2⟩ := ih h
      exact ⟨_ :: t₁, t₂, rfl, .cons h1, h2⟩

/-- The ioctls of one command. -/
def LIo (fd : Nat) (q : SgReq) (u : Prog.Trace LReq LRep) (r : LRep) (v : Option GoErr) : Prop :=
  (r.sg.err = none ∧ v = none ∧ u = [(.sgIo fd q, r)]) ∨
  (r.sg.err ≠ none ∧ ∃ r2 : LRep, v = r2.sg.err ∧ u = [(.sgIo fd q, r), (.sgIo fd { q with dxferp := .raw 128 }, r2)])

theorem LIo.wire {fd : Nat} {q : SgReq} {u : Prog.Trace LReq LRep} {r : LRep} {v : Option GoErr} (h : LIo fd q u r v)
    {t : Prog.Trace AReq ARep} (w : SysWire u t) : ∃ a, a.sys = r ∧ ScsiIo fd q t a v := by
  rcases h with ⟨h1, rfl, rfl⟩ | ⟨h1, r2, rfl, rfl⟩
  · cases w with
    | cons w => cases w; exact ⟨_, rfl, .once h1⟩
  · cases w with
    | cons w =>
      cases w with
      | cons w => cases w; exact ⟨_, rfl, .twice h1⟩

theorem drvSg_sec (fd : Nat) (rw dma : Bool) (p : Byte) (c : BitVec 16) (data : Bytes) (to : Nat) (hd : data ≠ [])
    (hlen : data.length < 4294967296) (env : Prog.Env LReq LRep) (h : Prog.Trace LReq LRep) :
    ∃ pl q r v d1 u ad m, OutT.run env h (drvSg fd (.sec rw dma p c data to)) =
        (.ret { drv := { err := v, data := d1, behind := pl.behind } }, (.place, pl) :: u) ∧
      IsSecurityProtocol rw p c data.length q ∧ q.dxferp = .mem ad m ∧ LIo fd q u r v ∧
      m = (if rw then data else zeros data.length) ∧ d1.length = data.length ∧
      (rw = true → d1 = data) ∧
      (rw = false → (r.sg.err = none → d1 = delivered m r.sg.data) ∧ (d1 = delivered m r.sg.data ∨ d1 = zeros data.length)) := by
  obtain ⟨pl, hp⟩ : ∃ p, p = env h .place := ⟨_, rfl⟩
  obtain ⟨env', h1, h2⟩ := sgSys_run fd (sgDriver pl.addr pl.base pl.behind (.sec rw dma p c data to)) env (h ++ [(.place, pl)])
  obtain ⟨t, ht⟩ : ∃ t, t = (OutT.run env (h ++ [(.place, pl)])
    (OutT.interp (sgSys fd) (sgDriver pl.addr pl.base pl.behind (.sec rw dma p c data to)))).2 := ⟨_, rfl⟩
  rw [← ht] at h2
  have fin : ∀ rep, (OutT.run env' [] (sgDriver pl.addr pl.base pl.behind (.sec rw dma p c data to))).1 = .ret rep →
      OutT.run env h (drvSg fd (.sec rw dma p c data to)) = (.ret { drv := rep }, (.place, pl) :: t) := by
    intro rep hr
    exact run_place_bind env h (fun p' => OutT.interp (sgSys fd) (sgDriver p'.addr p'.base p'.behind (.sec rw dma p c data to)))
      (fun r => ({ drv := r } : FRep)) pl hp rep t (Prod.ext (by rw [h1, hr]) ht.symm)
  have hcdb := sgSec_cdb rw p c data pl.addr pl.base to env' [] hd
  obtain ⟨a, m, d1, q, r, hq, hr, ha, hl, hs, hz, hz1, hz2, g1, g2⟩ := sgSecurity_run rw p c data pl.addr pl.base to env' [] hd
  have hfull : ∀ v T, OutT.run env' [] (sgSecurity rw p c data pl.addr pl.base to) = (.ret (v, d1), T) →
      OutT.run env' [] (sgDriver pl.addr pl.base pl.behind (.sec rw dma p c data to)) =
        (.ret { err := v, data := d1, behind := pl.behind }, T) := by
    intro v T hrun
    unfold sgDriver
    dsimp only
    rw [OutT.run_bind_ret env' [] hrun]
    simp
  have hqx : q.dxferp = .mem a m := by rw [hq]; rfl
  have hks : rw = false → q.kernelStore (zeros data.length) r = delivered (zeros data.length) r.data := by
    intro hw
    unfold SgReq.kernelStore
    have hdir : q.dir = -3 := by rw [hq, hw]; rfl
    have hdl : q.dxferLen = (zeros data.length).length := by
      rw [hq]
      show (BitVec.ofNat 32 data.length).toNat = _
      rw [BitVec.toNat_ofNat, Nat.mod_eq_of_lt hlen, zeros_length]
    rw [if_pos hdir, hdl, storeInto_eq_delivered]
    unfold delivered
    simp only [List.take_take, Nat.min_self]
  have hcmd : ∀ T, (.sgIo q, r) ∈ T → (OutT.run env' [] (sgSecurity rw p c data pl.addr pl.base to)).2 = T → IsSecurityProtocol rw p c data.length q := by
    intro T hm hT
    obtain ⟨q', hq', k1, k2, k3, k4, k5, k6, k7, k8, k9⟩ := hcdb (.sgIo q) r (by rw [hT]; exact hm)
    cases hq'
    rw [Nat.mod_eq_of_lt hlen] at k6 k9
    exact ⟨k1, k2, k3, k4, k6, ⟨k5, k7⟩, k8, k9⟩
  have hm : m = if rw then data else zeros data.length := by
    cases rw with
    | true => exact (hs rfl).1
    | false => exact hz rfl
  cases he : r.err with
  | none =>
    have hrun := g1 he
    have hc := hcmd _ (List.mem_singleton.2 rfl) (by rw [hrun])
    have hf := hfull _ _ hrun
    rw [hf] at h2
    cases h2 with
    | io h2 =>
      cases h2
      rename_i rep
      refine ⟨pl, q, rep, none, d1, _, a, m, fin _ (by rw [hf]), hc, hqx, .inl ⟨he, rfl, rfl⟩, hm, hl, fun h => (hs h).2, ?_⟩
      intro hw
      have := (hz1 hw (.inr he)).trans (hks hw)
      rw [hz hw]
      exact ⟨fun _ => this, .inl this⟩
  | some e =>
    obtain ⟨q2, r2, hq2, hr2, hrun⟩ := g2 e he
    have hc := hcmd _ List.mem_cons_self (by rw [hrun])
    have hf := hfull _ _ hrun
    rw [hf, hq2] at h2
    cases h2 with
    | io h2 =>
      cases h2 with
      | io h2 =>
        cases h2
        rename_i rep rep2
        refine ⟨pl, q, rep, _, d1, _, a, m, fin _ (by rw [hf]), hc, hqx, .inr ⟨by rw [he]; simp, rep2, rfl, rfl⟩, hm, hl, fun h => (hs h).2, ?_⟩
        intro hw
        rw [hz hw]
        refine ⟨(fun hn => by rw [he] at hn; cases hn), ?_⟩
        by_cases hal : pl.addr % 512 = 0
        · exact .inl ((hz1 hw (.inl hal)).trans (hks hw))
        · exact .inr (hz2 hw hal (by rw [he]; simp))

theorem trusted_of_sat {out : Bool} {p : Byte} {c : BitVec 16} {n : Nat} {q : SgReq}
    (hdec : satDecode q.cdb = some (satOf (securityTf out false p c n) true out false))
    (hdir : q.dir = if out then -2 else -3) (hlen : q.dxferLen = n) : IsTrusted out p c n q := by
  refine ⟨hdir, hlen, _, hdec, ?_, ?_, ?_, ?_, ?_, ?_, ?_, ?_, ?_⟩
  · cases out <;> rfl
  · cases out <;> rfl
  · rfl
  · show (BitVec.ofNat 8 (n / 512)).toNat = _
    rw [BitVec.toNat_ofNat]
  · rfl
  · show (c.setWidth 8).toNat = _
    rw [BitVec.toNat_setWidth]
  · show ((c >>> 8).setWidth 8).toNat = _
    rw [BitVec.toNat_setWidth, BitVec.toNat_ushiftRight, Nat.shiftRight_eq_div_pow]
    have := c.isLt
    omega
  · rfl
  · rfl

theorem drvSg_task (fd : Nat) (rw : Bool) (p : Byte) (c : BitVec 16) (data : Bytes) (to : Nat) (hd : data ≠ [])
    (hlen : data.length < 4294967296) (env : Prog.Env LReq LRep) (h : Prog.Trace LReq LRep) :
    ∃ pl q r v w tf' d1 u ad m, OutT.run env h (drvSg fd (.taskFile rw false (securityTf rw false p c data.length) data to)) =
        (.ret { drv := { err := w, data := d1, behind := pl.behind, tf := tf' } }, (.place, pl) :: u) ∧
      IsTrusted rw p c data.length q ∧ q.dxferp = .mem ad m ∧ LIo fd q u r v ∧ (v ≠ none → w = v) ∧ d1.length = data.length ∧
      (rw = true → m = zeros data.length ∧ d1 = zeros data.length) ∧
      (rw = false → (m = data ∨ m = zeros data.length) ∧ (r.sg.err = none → d1 = delivered m r.sg.data) ∧
        (d1 = delivered m r.sg.data ∨ d1 = data)) := by
  obtain ⟨tf, htf⟩ : ∃ tf, tf = securityTf rw false p c data.length := ⟨_, rfl⟩
  rw [← htf]
  obtain ⟨pl, hp⟩ : ∃ p, p = env h .place := ⟨_, rfl⟩
  obtain ⟨env', h1, h2⟩ := sgSys_run fd (sgDriver pl.addr pl.base pl.behind (.taskFile rw false tf data to)) env (h ++ [(.place, pl)])
  obtain ⟨t, ht⟩ : ∃ t, t = (OutT.run env (h ++ [(.place, pl)])
    (OutT.interp (sgSys fd) (sgDriver pl.addr pl.base pl.behind (.taskFile rw false tf data to)))).2 := ⟨_, rfl⟩
  rw [← ht] at h2
  have fin : ∀ rep, (OutT.run env' [] (sgDriver pl.addr pl.base pl.behind (.taskFile rw false tf data to))).1 = .ret rep →
      OutT.run env h (drvSg fd (.taskFile rw false tf data to)) = (.ret { drv := rep }, (.place, pl) :: t) := by
    intro rep hr
    exact run_place_bind env h (fun p' => OutT.interp (sgSys fd) (sgDriver p'.addr p'.base p'.behind (.taskFile rw false tf data to)))
      (fun r => ({ drv := r } : FRep)) pl hp rep t (Prod.ext (by rw [h1, hr]) ht.symm)
  have hcdb := (sg_cdb_faithful rw false tf (some data) pl.addr pl.base to env' []).2 (by simpa using hd)
  obtain ⟨x, d1, q, r, hq, hr, -, hs, g1, g2⟩ := sgTaskFile_run rw false tf (some data) pl.addr pl.base to env' [] (by simpa using hd)
  obtain ⟨d, hz⟩ : ∃ d, sgZeroOut rw (some data) = some d ∧ d = (if rw then zeros data.length else data) := by
    cases rw
    · exact ⟨_, rfl, rfl⟩
    · exact ⟨_, rfl, rfl⟩
  obtain ⟨hz, hdv⟩ := hz
  obtain ⟨a, m, d', hx, ha, hd1, hl, hcl, hw1, hal, hun⟩ := hs d hz
  have hdl : d.length = data.length := by rw [hdv]; cases rw <;> simp
  have hfull : ∀ v tf' T, OutT.run env' [] (sgTaskFile rw false tf (some data) pl.addr pl.base to) = (.ret (v, tf', d1), T) →
      OutT.run env' [] (sgDriver pl.addr pl.base pl.behind (.taskFile rw false tf data to)) =
        (.ret { err := v, data := d', behind := pl.behind, tf := tf' }, T) := by
    intro v tf' T hrun
    unfold sgDriver
    dsimp only
    rw [OutT.run_bind_ret env' [] hrun, hd1]
    simp
  have hqx : q.dxferp = .mem a m := by rw [hq, hx]; rfl
  have hdir : q.dir = if rw then -2 else -3 := by rw [hq, hz]; cases rw <;> rfl
  have hdxl : q.dxferLen = d.length := by
    rw [hq, hz]
    show (BitVec.ofNat 32 d.length).toNat = _
    rw [BitVec.toNat_ofNat, Nat.mod_eq_of_lt (by omega)]
  have hks : ∀ m : Bytes, m.length = d.length → rw = false → q.kernelStore m r = delivered m r.data := by
    intro m hm hw
    unfold SgReq.kernelStore
    rw [if_pos (by rw [hdir, hw]; rfl), hdxl, ← hm, storeInto_eq_delivered]
    unfold delivered
    simp only [List.take_take, Nat.min_self]
  have hsend : rw = true → m = zeros data.length ∧ d' = zeros data.length := by
    intro hw
    have hd0 : d = zeros data.length := by rw [hdv, hw]; rfl
    refine ⟨by rw [hw1 hw, hd0], ?_⟩
    by_cases h0 : pl.addr % 512 = 0
    · rw [(hal h0).2.2]
      unfold SgReq.kernelStore
      rw [if_neg (by rw [hdir, hw]; decide), hd0]
    · rw [(hun h0).2.1 (.inl hw), hd0]
  have hrecv : rw = false → (m = data ∨ m = zeros data.length) ∧ (r.err = none → d' = delivered m r.data) ∧
        (d' = delivered m r.data ∨ d' = data) := by
    intro hw
    have hd0 : d = data := by rw [hdv, hw]; rfl
    by_cases h0 : pl.addr % 512 = 0
    · obtain ⟨-, k1, k2⟩ := hal h0
      have : d' = delivered m r.data := by rw [k2, k1]; exact hks d rfl hw
      exact ⟨.inl (k1.trans hd0), fun _ => this, .inl this⟩
    · obtain ⟨k1, k2, k3⟩ := hun h0
      have hm0 : m = zeros d.length := k1 hw
      refine ⟨.inr (by rw [hm0, hd0]), ?_, ?_⟩
      · intro he
        rw [k3 hw he, hm0]
        exact hks _ (by simp) hw
      · cases he : r.err with
        | none => exact .inl (by rw [k3 hw he, hm0]; exact hks _ (by simp) hw)
        | some e => exact .inr (by rw [k2 (.inr (by rw [he]; simp)), hd0])
  have hcmd : ∀ T, (.sgIo q, r) ∈ T →
      (OutT.run env' [] (sgTaskFile rw false tf (some data) pl.addr pl.base to)).2 = T → IsTrusted rw p c data.length q := by
    intro T hm hT
    obtain ⟨q', hq', k1, k2, k3, k4⟩ := hcdb (.sgIo q) r (by rw [hT]; exact hm)
    cases hq'
    rw [htf] at k1
    exact trusted_of_sat k1 hdir (hdxl.trans hdl)
  cases he : r.err with
  | none =>
    have hrun := g1 he
    have hc := hcmd _ (List.mem_singleton.2 rfl) (by rw [hrun])
    have hf := hfull _ _ _ hrun
    rw [hf] at h2
    cases h2 with
    | io h2 =>
      cases h2
      rename_i rep
      exact ⟨pl, q, rep, none, _, _, d', _, a, m, fin _ (by rw [hf]), hc, hqx, .inl ⟨he, rfl, rfl⟩, fun h => absurd rfl h,
        hl.trans hdl, hsend, hrecv⟩
  | some e =>
    obtain ⟨q2, r2, hq2, hr2, k1, k2⟩ := g2 e he
    cases he2 : r2.err with
    | none =>
      have hrun := k1 he2
      have hc := hcmd _ List.mem_cons_self (by rw [hrun])
      have hf := hfull _ _ _ hrun
      rw [hf, hq2] at h2
      cases h2 with
      | io h2 =>
        cases h2 with
        | io h2 =>
          cases h2
          rename_i rep rep2
          exact ⟨pl, q, rep, none, _, _, d', _, a, m, fin _ (by rw [hf]), hc, hqx,
            .inr ⟨by rw [he]; simp, rep2, he2.symm, rfl⟩, fun h => absurd rfl h, hl.trans hdl, hsend, hrecv⟩
    | some e2 =>
      have hrun := k2 e2 he2
      have hc := hcmd _ List.mem_cons_self (by rw [hrun])
      have hf := hfull _ _ _ hrun
      rw [hf, hq2] at h2
      cases h2 with
      | io h2 =>
        cases h2 with
        | io h2 =>
          cases h2
          rename_i rep rep2
          exact ⟨pl, q, rep, some e2, _, _, d', _, a, m, fin _ (by rw [hf]), hc, hqx,
            .inr ⟨by rw [he]; simp, rep2, he2.symm, rfl⟩, fun _ => rfl, hl.trans hdl, hsend, hrecv⟩

end Dparm
