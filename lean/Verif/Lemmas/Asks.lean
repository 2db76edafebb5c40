import Verif.Model.OutT
/-!
# Programs whose requests all satisfy a predicate
-/
namespace Dparm

/-- Whatever the replies, every request of the program satisfies `A`. -/
def Prog.Asks {Q R α : Type} (A : Q → Prop) : Prog Q R α → Prop
  | .done _ => True
  | .ask q k => A q ∧ ∀ r, Prog.Asks A (k r)

/-- `Prog.Asks` for programs with outcomes. -/
def OutT.Asks {Q R α : Type} (A : Q → Prop) (p : OutT Q R α) : Prop := Prog.Asks A p

namespace OutT
variable {Q R Q' R' α β : Type} {A : Q → Prop}

theorem asks_ret (a : α) : Asks A (ret a : OutT Q R α) := trivial
theorem asks_pure (a : α) : Asks A (pure a : OutT Q R α) := trivial
theorem asks_panic : Asks A (panic : OutT Q R α) := trivial
theorem asks_running : Asks A (running : OutT Q R α) := trivial
theorem asks_lift (x : P α) : Asks A (lift x : OutT Q R α) := by cases x <;> exact trivial
theorem asks_ask {q : Q} (h : A q) : Asks A (ask q : OutT Q R R) := ⟨h, fun _ => trivial⟩

theorem _root_.Dparm.Prog.asks_bind {γ δ : Type} (p : Prog Q R γ) (f : γ → Prog Q R δ)
    (hp : Prog.Asks A p) (hf : ∀ a, Prog.Asks A (f a)) : Prog.Asks A (Prog.bind p f) := by
  induction p with
  | done a => exact hf a
  | ask q k ih => exact ⟨hp.1, fun r => ih r (hp.2 r)⟩

theorem asks_bind {p : OutT Q R α} {f : α → OutT Q R β} (hp : Asks A p) (hf : ∀ a, Asks A (f a)) :
    Asks A (p >>= f) := by
  refine Prog.asks_bind (γ := Out α) (δ := Out β) p (cont f) hp (fun a => ?_)
  cases a with
  | ret a => exact hf a
  | panic => trivial
  | running => trivial

theorem asks_interp {A' : Q' → Prop} (f : Q → OutT Q' R' R) (p : Prog Q R (Out α))
    (hp : Prog.Asks A p) (hf : ∀ q, A q → Asks A' (f q)) : Asks A' (interp f p) := by
  induction p with
  | done a => trivial
  | ask q k ih => exact asks_bind (hf q hp.1) (fun r => ih r (hp.2 r))

theorem asks_mono {A B : Q → Prop} (h : ∀ q, A q → B q) {p : OutT Q R α} (hp : Asks A p) : Asks B p := by
  have : ∀ p : Prog Q R (Out α), Prog.Asks A p → Prog.Asks B p := by
    intro p
    induction p with
    | done a => intro _; trivial
    | ask q k ih => intro hp; exact ⟨h _ hp.1, fun r => ih r (hp.2 r)⟩
  exact this p hp

theorem asks_true (p : OutT Q R α) : Asks (fun _ => True) p := by
  have : ∀ p : Prog Q R (Out α), Prog.Asks (fun _ => True) p := by
    intro p
    induction p with
    | done a => trivial
    | ask q k ih => exact ⟨trivial, fun r => ih r⟩
  exact this p

theorem asks_run {p : OutT Q R α} (hp : Asks A p) (env : Prog.Env Q R) (hist : Prog.Trace Q R) :
    ∀ x ∈ (run env hist p).2, A x.1 := by
  have : ∀ (p : Prog Q R (Out α)) (hist : Prog.Trace Q R), Prog.Asks A p →
      ∀ x ∈ (Prog.run env hist p).2, A x.1 := by
    intro p
    induction p with
    | done a => intro hist _ x hx; simp at hx
    | ask q k ih =>
      intro hist hp x hx
      rw [Prog.run_ask] at hx
      simp only [List.mem_cons] at hx
      rcases hx with rfl | hx
      · exact hp.1
      · exact ih _ _ (hp.2 _) x hx
  exact this p hist hp

/-- Every outcome the program can return satisfies `B`, whatever the replies (panics and unfinished runs are free). -/
def _root_.Dparm.Prog.Returns (B : α → Prop) : Prog Q R (Out α) → Prop
  | .done (.ret a) => B a
  | .done _ => True
  | .ask _ k => ∀ r, Prog.Returns B (k r)

def Returns (B : α → Prop) (p : OutT Q R α) : Prop := Prog.Returns B p

theorem returns_run {B : α → Prop} {p : OutT Q R α} (hp : Returns B p) (env : Prog.Env Q R) (hist : Prog.Trace Q R)
    (a : α) (h : (run env hist p).1 = .ret a) : B a := by
  have : ∀ (p : Prog Q R (Out α)) (hist : Prog.Trace Q R), Prog.Returns B p →
      (Prog.run env hist p).1 = .ret a → B a := by
    intro p
    induction p with
    | done o =>
      intro hist hp h
      rw [Prog.run_done] at h
      simp only at h
      subst h
      exact hp
    | ask q k ih =>
      intro hist hp h
      exact ih _ _ (hp _) h
  exact this p hist hp h

theorem returns_ret {B : α → Prop} {a : α} (h : B a) : Returns B (ret a : OutT Q R α) := h
theorem returns_panic {B : α → Prop} : Returns B (panic : OutT Q R α) := trivial

theorem _root_.Dparm.Prog.returns_bind {B : α → Prop} {C : β → Prop} (p : Prog Q R (Out α)) (f : α → OutT Q R β)
    (hp : Prog.Returns B p) (hf : ∀ a, B a → Returns C (f a)) :
    Prog.Returns C (Prog.bind p (cont f)) := by
  induction p with
  | done o =>
    cases o with
    | ret a => exact hf a hp
    | panic => trivial
    | running => trivial
  | ask q k ih => exact fun r => ih r (hp r)

theorem returns_bind {B : α → Prop} {C : β → Prop} {p : OutT Q R α} {f : α → OutT Q R β}
    (hp : Returns B p) (hf : ∀ a, B a → Returns C (f a)) : Returns C (p >>= f) :=
  Prog.returns_bind p f hp hf

theorem returns_any (p : OutT Q R α) : Returns (fun _ => True) p := by
  have : ∀ p : Prog Q R (Out α), Prog.Returns (fun _ => True) p := by
    intro p
    induction p with
    | done o => cases o <;> trivial
    | ask q k ih => exact fun r => ih r
  exact this p

theorem returns_interp {B : α → Prop} (f : Q → OutT Q' R' R) (p : Prog Q R (Out α))
    (hp : Prog.Returns B p) : Returns B (interp f p) := by
  induction p with
  | done o => cases o with
    | ret a => exact hp
    | panic => trivial
    | running => trivial
  | ask q k ih => exact returns_bind (returns_any _) (fun r _ => ih r (hp r))

end OutT

/-! ### From runs to requests -/

theorem Prog.run_moved {Q R α : Type} (p : Prog Q R α) (e1 e2 : Prog.Env Q R) (h1 h2 : Prog.Trace Q R)
    (h : ∀ t, e1 (h1 ++ t) = e2 (h2 ++ t)) : Prog.run e1 h1 p = Prog.run e2 h2 p := by
  induction p generalizing h1 h2 with
  | done a => rfl
  | ask q k ih =>
    have h0 : e1 h1 q = e2 h2 q := by have := h []; rw [List.append_nil, List.append_nil] at this; rw [this]
    rw [Prog.run_ask, Prog.run_ask, h0]
    rw [ih (e2 h2 q) (h1 ++ [(q, e2 h2 q)]) (h2 ++ [(q, e2 h2 q)]) (fun t => by rw [List.append_assoc, List.append_assoc, h])]

theorem Prog.asks_of_run {Q R α : Type} [Inhabited R] {A : Q → Prop} (p : Prog Q R α)
    (h : ∀ env hist, ∀ x ∈ (Prog.run env hist p).2, A x.1) : Prog.Asks A p := by
  induction p with
  | done a => trivial
  | ask q k ih =>
    refine ⟨?_, fun r => ih r (fun env hist x hx => ?_)⟩
    · have := h (fun _ _ => default) [] (q, default) (by rw [Prog.run_ask]; simp)
      exact this
    · let env' : Prog.Env Q R := fun t q' => match t with
        | [] => r
        | _ :: t => env (hist ++ t) q'
      have h1 : Prog.run env' [(q, r)] (k r) = Prog.run env hist (k r) :=
        Prog.run_moved (k r) env' env [(q, r)] hist (fun t => rfl)
      refine h env' [] x ?_
      rw [Prog.run_ask]
      have h2 : env' [] q = r := rfl
      rw [h2, List.nil_append, h1]
      exact List.mem_cons_of_mem _ hx

theorem OutT.asks_of_run {Q R α : Type} [Inhabited R] {A : Q → Prop} {p : OutT Q R α}
    (h : ∀ env hist, ∀ x ∈ (OutT.run env hist p).2, A x.1) : OutT.Asks A p := Prog.asks_of_run p h

end Dparm
