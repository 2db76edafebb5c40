import Verif.Lemmas.Asks
/-!
# Running a program on top of lower-layer programs

`OutT.interp f p` behaves as `p` in the environment that answers each request by running `f` on it, as long as `f` returns.
-/
namespace Dparm

/-- As long as the replies satisfy `B`, every request of the program satisfies `A`. -/
def Prog.Within {Q R α : Type} (A : Q → Prop) (B : Q → R → Prop) : Prog Q R α → Prop
  | .done _ => True
  | .ask q k => A q ∧ ∀ r, B q r → Prog.Within A B (k r)

/-- `Prog.Within` for programs with outcomes. -/
def OutT.Within {Q R α : Type} (A : Q → Prop) (B : Q → R → Prop) (p : OutT Q R α) : Prop := Prog.Within A B p

namespace OutT
variable {Q R Q' R' α β : Type} {A : Q → Prop} {B : Q → R → Prop}

theorem within_ret (a : α) : Within A B (ret a : OutT Q R α) := trivial
theorem within_panic : Within A B (panic : OutT Q R α) := trivial
theorem within_running : Within A B (running : OutT Q R α) := trivial
theorem within_lift (x : P α) : Within A B (lift x : OutT Q R α) := by cases x <;> exact trivial
theorem within_ask {q : Q} (h : A q) : Within A B (ask q : OutT Q R R) := ⟨h, fun _ _ => trivial⟩

theorem within_of_asks {p : OutT Q R α} (h : Asks A p) : Within A B p := by
  have : ∀ p : Prog Q R (Out α), Prog.Asks A p → Prog.Within A B p := by
    intro p
    induction p with
    | done a => intro _; trivial
    | ask q k ih => intro h; exact ⟨h.1, fun r _ => ih r (h.2 r)⟩
  exact this p h

theorem within_bind {C : α → Prop} {p : OutT Q R α} {f : α → OutT Q R β} (hp : Within A B p) (hr : Returns C p)
    (hf : ∀ a, C a → Within A B (f a)) : Within A B (p >>= f) := by
  have : ∀ p : Prog Q R (Out α), Prog.Within A B p → Prog.Returns C p → Prog.Within A B (Prog.bind p (cont f)) := by
    intro p
    induction p with
    | done o =>
      intro _ hr
      cases o with
      | ret a => exact hf a hr
      | panic => trivial
      | running => trivial
    | ask q k ih => intro h hr; exact ⟨h.1, fun r hb => ih r (h.2 r hb) (hr r)⟩
  exact this p hp hr

theorem within_bind' {p : OutT Q R α} {f : α → OutT Q R β} (hp : Within A B p)
    (hf : ∀ a, Within A B (f a)) : Within A B (p >>= f) :=
  within_bind (C := fun _ => True) hp (returns_any p) (fun a _ => hf a)

theorem within_ask_bind {q : Q} {f : R → OutT Q R β} (h : A q) (hf : ∀ r, B q r → Within A B (f r)) :
    Within A B (ask q >>= f) := ⟨h, fun r hb => hf r hb⟩

theorem within_defer {p : OutT Q R α} {d : OutT Q R Unit} (hp : Within A B p) (hd : Within A B d) :
    Within A B (defer p d) := by
  have key : ∀ o : Out α, Prog.Within A B (Prog.bind d (fun x => .done (after o x))) := by
    intro o
    have : ∀ d : Prog Q R (Out Unit), Prog.Within A B d → Prog.Within A B (Prog.bind d (fun x => .done (after o x))) := by
      intro d
      induction d with
      | done x => intro _; trivial
      | ask q k ih => intro h; exact ⟨h.1, fun r hb => ih r (h.2 r hb)⟩
    exact this d hd
  have : ∀ p : Prog Q R (Out α), Prog.Within A B p → Prog.Within A B (Prog.bind p (fun o => match o with
    | .running => .done .running
    | .ret a => Prog.bind d (fun x => .done (after (.ret a) x))
    | .panic => Prog.bind d (fun x => .done (after .panic x)))) := by
    intro p
    induction p with
    | done o =>
      intro _
      cases o with
      | ret a => exact key _
      | panic => exact key _
      | running => trivial
    | ask q k ih => intro h; exact ⟨h.1, fun r hb => ih r (h.2 r hb)⟩
  exact this p hp

theorem asks_defer {p : OutT Q R α} {d : OutT Q R Unit} (hp : Asks A p) (hd : Asks A d) : Asks A (defer p d) := by
  refine Prog.asks_bind (γ := Out α) (δ := Out α) p _ hp (fun o => ?_)
  cases o with
  | running => trivial
  | ret a => exact Prog.asks_bind (γ := Out Unit) (δ := Out α) d _ hd (fun _ => trivial)
  | panic => exact Prog.asks_bind (γ := Out Unit) (δ := Out α) d _ hd (fun _ => trivial)

theorem run_after_any (env : Prog.Env Q R) (h : Prog.Trace Q R) {d : OutT Q R Unit} {x : Out Unit} {u : Prog.Trace Q R}
    (hd : run env h d = (x, u)) (o : Out α) :
    Prog.run env h (Prog.bind d (fun x => .done (after o x))) = (after o x, u) := by
  refine (Prog.run_bind (α := Out Unit) (β := Out α) env h d _).trans ?_
  unfold run at hd
  rw [hd]
  simp [Prog.run]

theorem run_defer_of_panic (env : Prog.Env Q R) (h : Prog.Trace Q R) {p : OutT Q R α} {d : OutT Q R Unit}
    {t : Prog.Trace Q R} (hp : run env h p = (.panic, t)) :
    ∃ w v, run env h (defer p d) = (w, v) ∧ ∀ a, w ≠ .ret a := by
  rcases hd : run env (h ++ t) d with ⟨x, u⟩
  have hr : run env h (defer p d) = (after .panic x, t ++ u) := by
    refine (Prog.run_bind (α := Out α) (β := Out α) env h p _).trans ?_
    unfold run at hp
    rw [hp]
    simp only
    rw [run_after_any env (h ++ t) hd]
  refine ⟨_, _, hr, fun a => ?_⟩
  cases x <;> simp [after]

theorem run_defer_of_ret (env : Prog.Env Q R) (h : Prog.Trace Q R) {p : OutT Q R α} {d : OutT Q R Unit} {z : α}
    {t : Prog.Trace Q R} (hp : run env h p = (.ret z, t)) :
    ∃ w v, run env h (defer p d) = (w, t ++ v) ∧ ∀ a, w = .ret a → a = z := by
  rcases hd : run env (h ++ t) d with ⟨x, u⟩
  have hr : run env h (defer p d) = (after (.ret z) x, t ++ u) := by
    refine (Prog.run_bind (α := Out α) (β := Out α) env h p _).trans ?_
    unfold run at hp
    rw [hp]
    simp only
    rw [run_after_any env (h ++ t) hd]
  refine ⟨_, _, hr, fun a ha => ?_⟩
  cases x <;> simp [after] at ha
  exact ha.symm

/-- The lower layer's answer to `q` after the lower history `h`; `dflt` if it does not return. -/
def answer (f : Q → OutT Q' R' R) (env : Prog.Env Q' R') (dflt : R) (h : Prog.Trace Q' R') (q : Q) : R :=
  match (run env h (f q)).1 with
  | .ret r => r
  | _ => dflt

/-- The lower history after the upper history `H`, starting from `h`. -/
def lowered (f : Q → OutT Q' R' R) (env : Prog.Env Q' R') (h : Prog.Trace Q' R') (H : Prog.Trace Q R) :
    Prog.Trace Q' R' :=
  H.foldl (fun h x => h ++ (run env h (f x.1)).2) h

/-- The environment the upper program sees. -/
def upperEnv (f : Q → OutT Q' R' R) (env : Prog.Env Q' R') (dflt : R) (h : Prog.Trace Q' R') : Prog.Env Q R :=
  fun H q => answer f env dflt (lowered f env h H) q

theorem lowered_append (f : Q → OutT Q' R' R) (env : Prog.Env Q' R') (h : Prog.Trace Q' R') (H K : Prog.Trace Q R) :
    lowered f env h (H ++ K) = lowered f env (lowered f env h H) K := by
  unfold lowered
  rw [List.foldl_append]

theorem lowered_cons (f : Q → OutT Q' R' R) (env : Prog.Env Q' R') (h : Prog.Trace Q' R') (x : Q × R)
    (H : Prog.Trace Q R) : lowered f env h (x :: H) = lowered f env (h ++ (run env h (f x.1)).2) H := rfl

theorem bind_assoc' {γ : Type} (p : OutT Q R α) (f : α → OutT Q R β) (g : β → OutT Q R γ) :
    ((p >>= f) >>= g) = (p >>= fun a => f a >>= g) := by
  have : ∀ p : Prog Q R (Out α), Prog.bind (Prog.bind p (cont f)) (cont g) = Prog.bind p (cont fun a => f a >>= g) := by
    intro p
    induction p with
    | done o => cases o <;> rfl
    | ask q k ih => exact congrArg (Prog.ask q) (funext ih)
  exact this p

theorem interp_bind (f : Q → OutT Q' R' R) (p : OutT Q R α) (k : α → OutT Q R β) :
    interp f (p >>= k : OutT Q R β) = ((interp f p : OutT Q' R' α) >>= fun a => interp f (k a)) := by
  have : ∀ p : Prog Q R (Out α), interp f (Prog.bind p (cont k)) = ((interp f p : OutT Q' R' α) >>= fun a => interp f (k a)) := by
    intro p
    induction p with
    | done o => cases o <;> rfl
    | ask q c ih =>
      show (f q >>= fun r => interp f (Prog.bind (c r) (cont k))) = ((f q >>= fun r => interp f (c r)) >>= _)
      rw [bind_assoc']
      congr 1
      funext r
      exact ih r
  exact this p

/-- The upper program's run, seen from both layers, after the upper history `H`. -/
theorem interp_run_at (f : Q → OutT Q' R' R) (env : Prog.Env Q' R') (dflt : R) (h : Prog.Trace Q' R')
    (hf : ∀ q, A q → ∀ h, ∃ r, (run env h (f q)).1 = .ret r ∧ B q r) {p : OutT Q R α} (hp : Within A B p)
    (H : Prog.Trace Q R) :
    (run env (lowered f env h H) (interp f p)).1 = (run (upperEnv f env dflt h) H p).1 ∧
    lowered f env h H ++ (run env (lowered f env h H) (interp f p)).2 =
      lowered f env h (H ++ (run (upperEnv f env dflt h) H p).2) := by
  have key : ∀ (p : Prog Q R (Out α)) (H : Prog.Trace Q R), Prog.Within A B p →
      (run env (lowered f env h H) (interp f p)).1 = (Prog.run (upperEnv f env dflt h) H p).1 ∧
      lowered f env h H ++ (run env (lowered f env h H) (interp f p)).2 =
        lowered f env h (H ++ (Prog.run (upperEnv f env dflt h) H p).2) := by
    intro p
    induction p with
    | done o =>
      intro H _
      refine ⟨rfl, ?_⟩
      rw [Prog.run_done]
      show _ ++ [] = _
      simp
    | ask q k ih =>
      intro H hw
      obtain ⟨r, hr, hb⟩ := hf q hw.1 (lowered f env h H)
      have ha : upperEnv f env dflt h H q = r := by
        unfold upperEnv answer
        rw [hr]
      have hl : lowered f env h (H ++ [(q, r)]) =
          lowered f env h H ++ (run env (lowered f env h H) (f q)).2 := by
        rw [lowered_append]
        rfl
      have hrun : run env (lowered f env h H) (f q) = (.ret r, (run env (lowered f env h H) (f q)).2) :=
        Prod.ext hr rfl
      have hi : run env (lowered f env h H) (interp f (.ask q k)) =
          ((run env (lowered f env h (H ++ [(q, r)])) (interp f (k r))).1,
           (run env (lowered f env h H) (f q)).2 ++ (run env (lowered f env h (H ++ [(q, r)])) (interp f (k r))).2) := by
        rw [hl]
        exact run_bind_ret env _ hrun
      rw [hi, Prog.run_ask, ha]
      obtain ⟨i1, i2⟩ := ih r (H ++ [(q, r)]) (hw.2 r hb)
      refine ⟨i1, ?_⟩
      simp only
      rw [← List.append_assoc, ← hl, i2, List.append_assoc]
      rfl
  exact key p H hp

/-- The upper program's run, seen from both layers. -/
theorem interp_run (f : Q → OutT Q' R' R) (env : Prog.Env Q' R') (dflt : R) (h : Prog.Trace Q' R')
    (hf : ∀ q, A q → ∀ h, ∃ r, (run env h (f q)).1 = .ret r ∧ B q r) {p : OutT Q R α} (hp : Within A B p) :
    (run env h (interp f p)).1 = (run (upperEnv f env dflt h) [] p).1 ∧
    h ++ (run env h (interp f p)).2 = lowered f env h (run (upperEnv f env dflt h) [] p).2 :=
  interp_run_at f env dflt h hf hp []

theorem lowered_prefix (f : Q → OutT Q' R' R) (env : Prog.Env Q' R') (H : Prog.Trace Q R) :
    ∀ h : Prog.Trace Q' R', ∃ t, lowered f env h H = h ++ t := by
  induction H with
  | nil => intro h; exact ⟨[], (List.append_nil _).symm⟩
  | cons x H ih =>
    intro h
    obtain ⟨t, ht⟩ := ih (h ++ (run env h (f x.1)).2)
    exact ⟨_, by rw [lowered_cons, ht, List.append_assoc]⟩

/-- A part of the upper run is a part of the lower run. -/
theorem interp_part (f : Q → OutT Q' R' R) (env : Prog.Env Q' R') (dflt : R) (h : Prog.Trace Q' R')
    (hf : ∀ q, A q → ∀ h, ∃ r, (run env h (f q)).1 = .ret r ∧ B q r) {p : OutT Q R α} (hp : Within A B p)
    {q : OutT Q R β} (hq : Within A B q) {T₁ C T₂ : Prog.Trace Q R} {o : Out β}
    (hT : (run (upperEnv f env dflt h) [] p).2 = T₁ ++ (C ++ T₂)) (hc : run (upperEnv f env dflt h) T₁ q = (o, C)) :
    ∃ t₁ c t₂, (run env h (interp f p)).2 = t₁ ++ (c ++ t₂) ∧ run env (h ++ t₁) (interp f q) = (o, c) := by
  obtain ⟨-, h1⟩ := interp_run f env dflt h hf hp
  obtain ⟨h2, h3⟩ := interp_run_at f env dflt h hf hq T₁
  obtain ⟨t₁, ht⟩ := lowered_prefix f env T₁ h
  rw [hc] at h2 h3
  rw [ht] at h2 h3
  obtain ⟨t₂, ht2⟩ := lowered_prefix f env T₂ (lowered f env h (T₁ ++ C))
  rw [hT, ← List.append_assoc, lowered_append, ht2] at h1
  simp only at h3
  rw [← h3, List.append_assoc, List.append_assoc, List.append_cancel_left_eq] at h1
  exact ⟨t₁, _, t₂, h1, Prod.ext h2 rfl⟩

/-- The upper run's requests and replies. -/
theorem within_run (env : Prog.Env Q R) (h : Prog.Trace Q R) {p : OutT Q R α} (hp : Within A B p)
    (hb : ∀ q, A q → ∀ h, B q (env h q)) : ∀ x ∈ (run env h p).2, A x.1 ∧ B x.1 x.2 := by
  have key : ∀ (p : Prog Q R (Out α)) (h : Prog.Trace Q R), Prog.Within A B p →
      ∀ x ∈ (Prog.run env h p).2, A x.1 ∧ B x.1 x.2 := by
    intro p
    induction p with
    | done o => intro h _ x hx; simp at hx
    | ask q k ih =>
      intro h hw x hx
      rw [Prog.run_ask] at hx
      simp only [List.mem_cons] at hx
      rcases hx with rfl | hx
      · exact ⟨hw.1, hb q hw.1 h⟩
      · exact ih _ _ (hw.2 _ (hb q hw.1 h)) x hx
  exact key p h hp

theorem upperEnv_ok (f : Q → OutT Q' R' R) (env : Prog.Env Q' R') (dflt : R) (h : Prog.Trace Q' R')
    (hf : ∀ q, A q → ∀ h, ∃ r, (run env h (f q)).1 = .ret r ∧ B q r) (q : Q) (hq : A q) (H : Prog.Trace Q R) :
    (run env (lowered f env h H) (f q)).1 = .ret (upperEnv f env dflt h H q) ∧ B q (upperEnv f env dflt h H q) := by
  obtain ⟨r, hr, hb⟩ := hf q hq (lowered f env h H)
  have ha : upperEnv f env dflt h H q = r := by
    unfold upperEnv answer
    rw [hr]
  rw [ha]
  exact ⟨hr, hb⟩

/-- A lower trace made of the exchanges of the lower programs, one after the other, for an upper trace. -/
inductive Chunks (f : Q → OutT Q' R' R) (env : Prog.Env Q' R') : Prog.Trace Q R → Prog.Trace Q' R' → Prop
  | nil : Chunks f env [] []
  | cons {q : Q} {r : R} {h c T t} (hc : run env h (f q) = (.ret r, c)) (ht : Chunks f env T t) :
      Chunks f env ((q, r) :: T) (c ++ t)

theorem Chunks.append {f : Q → OutT Q' R' R} {env : Prog.Env Q' R'} {T₁ T₂ : Prog.Trace Q R} {t₁ t₂ : Prog.Trace Q' R'}
    (h₁ : Chunks f env T₁ t₁) (h₂ : Chunks f env T₂ t₂) : Chunks f env (T₁ ++ T₂) (t₁ ++ t₂) := by
  induction h₁ with
  | nil => exact h₂
  | cons hc _ ih =>
    rw [List.append_assoc]
    exact .cons hc ih

/-- What a function reads off the lower trace, from what it reads off each chunk. -/
theorem Chunks.filterMap {γ : Type} {f : Q → OutT Q' R' R} {env : Prog.Env Q' R'} {T : Prog.Trace Q R}
    {t : Prog.Trace Q' R'} (H : Chunks f env T t) (g : Q' × R' → Option γ) (g' : Q × R → List γ)
    (hg : ∀ q r h c, (q, r) ∈ T → run env h (f q) = (.ret r, c) → c.filterMap g = g' (q, r)) :
    t.filterMap g = T.flatMap g' := by
  induction H with
  | nil => rfl
  | cons hc _ ih =>
    rw [List.filterMap_append, List.flatMap_cons, hg _ _ _ _ (by simp) hc,
      ih (fun q r h c hm => hg q r h c (List.mem_cons_of_mem _ hm))]

theorem interp_chunks (f : Q → OutT Q' R' R) (env : Prog.Env Q' R') (dflt : R) (h : Prog.Trace Q' R')
    (hf : ∀ q, A q → ∀ h, ∃ r, (run env h (f q)).1 = .ret r ∧ B q r) {p : OutT Q R α} (hp : Within A B p) :
    (run env h (interp f p)).1 = (run (upperEnv f env dflt h) [] p).1 ∧
    Chunks f env (run (upperEnv f env dflt h) [] p).2 (run env h (interp f p)).2 := by
  have key : ∀ (p : Prog Q R (Out α)) (H : Prog.Trace Q R), Prog.Within A B p →
      (run env (lowered f env h H) (interp f p)).1 = (Prog.run (upperEnv f env dflt h) H p).1 ∧
      Chunks f env (Prog.run (upperEnv f env dflt h) H p).2 (run env (lowered f env h H) (interp f p)).2 := by
    intro p
    induction p with
    | done o => intro H _; exact ⟨rfl, .nil⟩
    | ask q k ih =>
      intro H hw
      obtain ⟨r, hr, hb⟩ := hf q hw.1 (lowered f env h H)
      have ha : upperEnv f env dflt h H q = r := by
        unfold upperEnv answer
        rw [hr]
      have hl : lowered f env h (H ++ [(q, r)]) =
          lowered f env h H ++ (run env (lowered f env h H) (f q)).2 := by
        rw [lowered_append]
        rfl
      have hrun : run env (lowered f env h H) (f q) = (.ret r, (run env (lowered f env h H) (f q)).2) :=
        Prod.ext hr rfl
      have hi : run env (lowered f env h H) (interp f (.ask q k)) =
          ((run env (lowered f env h (H ++ [(q, r)])) (interp f (k r))).1,
           (run env (lowered f env h H) (f q)).2 ++ (run env (lowered f env h (H ++ [(q, r)])) (interp f (k r))).2) := by
        rw [hl]
        exact run_bind_ret env _ hrun
      rw [hi, Prog.run_ask, ha]
      obtain ⟨i1, i2⟩ := ih r (H ++ [(q, r)]) (hw.2 r hb)
      exact ⟨i1, .cons hrun i2⟩
  exact key p [] hp

/-- The program returns, whatever the replies, and what it returns satisfies `C`. -/
def _root_.Dparm.Prog.Total (C : α → Prop) : Prog Q R (Out α) → Prop
  | .done (.ret a) => C a
  | .done _ => False
  | .ask _ k => ∀ r, Prog.Total C (k r)

def Total (C : α → Prop) (p : OutT Q R α) : Prop := Prog.Total C p

theorem total_ret {C : α → Prop} {a : α} (h : C a) : Total C (ret a : OutT Q R α) := h

theorem total_bind {C : α → Prop} {D : β → Prop} {p : OutT Q R α} {f : α → OutT Q R β} (hp : Total C p)
    (hf : ∀ a, C a → Total D (f a)) : Total D (p >>= f) := by
  have : ∀ p : Prog Q R (Out α), Prog.Total C p → Prog.Total D (Prog.bind p (cont f)) := by
    intro p
    induction p with
    | done o => intro h; cases o with
      | ret a => exact hf a h
      | panic => exact absurd h id
      | running => exact absurd h id
    | ask q k ih => intro h r; exact ih r (h r)
  exact this p hp

theorem total_ask_bind {D : β → Prop} {q : Q} {f : R → OutT Q R β} (hf : ∀ a, Total D (f a)) : Total D (ask q >>= f) :=
  fun r => hf r

theorem total_lift {C : α → Prop} {x : P α} {a : α} (hx : x = .ret a) (h : C a) : Total C (lift x : OutT Q R α) := by
  subst hx; exact h

theorem total_interp {C : α → Prop} (f : Q → OutT Q' R' R) (hf : ∀ q, Total (fun _ => True) (f q)) {p : OutT Q R α}
    (hp : Total C p) : Total C (interp f p) := by
  have : ∀ p : Prog Q R (Out α), Prog.Total C p → Total C (interp f p) := by
    intro p
    induction p with
    | done o => intro h; cases o with
      | ret a => exact h
      | panic => exact absurd h id
      | running => exact absurd h id
    | ask q k ih => intro h; exact total_bind (hf q) (fun r _ => ih r (h r))
  exact this p hp

theorem total_mono {C D : α → Prop} (h : ∀ a, C a → D a) {p : OutT Q R α} (hp : Total C p) : Total D p := by
  have : ∀ p : Prog Q R (Out α), Prog.Total C p → Prog.Total D p := by
    intro p
    induction p with
    | done o => intro hp; cases o with
      | ret a => exact h a hp
      | panic => exact absurd hp id
      | running => exact absurd hp id
    | ask q k ih => intro hp r; exact ih r (hp r)
  exact this p hp

theorem total_run {C : α → Prop} {p : OutT Q R α} (hp : Total C p) (env : Prog.Env Q R) (h : Prog.Trace Q R) :
    ∃ a, (run env h p).1 = .ret a ∧ C a := by
  have : ∀ (p : Prog Q R (Out α)) (h : Prog.Trace Q R), Prog.Total C p → ∃ a, (Prog.run env h p).1 = .ret a ∧ C a := by
    intro p
    induction p with
    | done o => intro h hp; cases o with
      | ret a => exact ⟨a, rfl, hp⟩
      | panic => exact absurd hp id
      | running => exact absurd hp id
    | ask q k ih => intro h hp; exact ih _ _ (hp _)
  exact this p h hp

end OutT
end Dparm
