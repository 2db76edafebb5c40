import Verif.Lemmas.Asks
/-!
# Programs that respect a protocol

A protocol (`Policy`) keeps a state along the exchanges of a program: which requests are allowed in it, which answers a
sound environment gives, and the state after an exchange.
-/
namespace Dparm

/-- Allowed requests, possible answers, state afterwards. -/
structure Policy (Q R S : Type) where
  allowed : S → Q → Prop
  answers : S → Q → R → Prop
  next : S → Q → R → S

/-- From the state `s` on, every request is allowed; a returned value satisfies `K` with the final state. `B` holds of the
state before every request and when the program panics or does not end. -/
def Prog.Safe {Q R S α : Type} (P : Policy Q R S) (B : S → Prop) : Prog Q R (Out α) → S → (α → S → Prop) → Prop
  | .done (.ret a), s, K => K a s
  | .done .panic, s, _ => B s
  | .done .running, s, _ => B s
  | .ask q k, s, K => B s ∧ P.allowed s q ∧ ∀ r, P.answers s q r → Prog.Safe P B (k r) (P.next s q r) K

/-- `Prog.Safe` for programs with outcomes. -/
def OutT.Safe {Q R S α : Type} (P : Policy Q R S) (B : S → Prop) (p : OutT Q R α) (s : S) (K : α → S → Prop) : Prop :=
  Prog.Safe P B p s K

namespace Policy
variable {Q R S : Type} (P : Policy Q R S)

/-- The state after the exchanges. -/
def after (s : S) (t : Prog.Trace Q R) : S := t.foldl (fun s x => P.next s x.1 x.2) s

/-- All requests are allowed when they are made. -/
def Ok : S → Prog.Trace Q R → Prop
  | _, [] => True
  | s, x :: t => P.allowed s x.1 ∧ Ok (P.next s x.1 x.2) t

theorem after_append (s : S) (t u : Prog.Trace Q R) : P.after s (t ++ u) = P.after (P.after s t) u := by
  unfold after; rw [List.foldl_append]

theorem ok_append (s : S) (t u : Prog.Trace Q R) : P.Ok s (t ++ u) ↔ P.Ok s t ∧ P.Ok (P.after s t) u := by
  induction t generalizing s with
  | nil => simp [Ok, after]
  | cons x t ih => rw [List.cons_append, Ok, Ok, ih, and_assoc]; rfl

/-- An environment whose answers are possible ones, seen from the start `s₀`. -/
def Sound (s₀ : S) (env : Prog.Env Q R) : Prop := ∀ h q, P.answers (P.after s₀ h) q (env h q)

end Policy

namespace OutT
variable {Q R Q' R' S α β : Type} {P : Policy Q R S} {B : S → Prop}

theorem safe_ret {a : α} {s : S} {K : α → S → Prop} (h : K a s) : Safe P B (ret a : OutT Q R α) s K := h
theorem safe_panic {s : S} {K : α → S → Prop} (h : B s) : Safe P B (panic : OutT Q R α) s K := h

theorem safe_ask_bind {q : Q} {f : R → OutT Q R β} {s : S} {K : β → S → Prop} (hB : B s) (ha : P.allowed s q)
    (hf : ∀ r, P.answers s q r → Safe P B (f r) (P.next s q r) K) : Safe P B (ask q >>= f) s K := ⟨hB, ha, hf⟩

theorem _root_.Dparm.Prog.safe_mono {p : Prog Q R (Out α)} {B B' : S → Prop} (hB : ∀ s, B s → B' s) : ∀ {s : S}
    {K K' : α → S → Prop}, Prog.Safe P B p s K → (∀ a s, K a s → K' a s) → Prog.Safe P B' p s K' := by
  induction p with
  | done o =>
    intro s K K' h hK
    cases o with
    | ret a => exact hK a s h
    | panic => exact hB s h
    | running => exact hB s h
  | ask q k ih => intro s K K' h hK; exact ⟨hB s h.1, h.2.1, fun r hr => ih r (h.2.2 r hr) hK⟩

theorem safe_mono {p : OutT Q R α} {s : S} {K K' : α → S → Prop} (h : Safe P B p s K) (hK : ∀ a s, K a s → K' a s) :
    Safe P B p s K' := Prog.safe_mono (fun _ h => h) h hK

theorem safe_weaken {B' : S → Prop} (hB : ∀ s, B s → B' s) {p : OutT Q R α} {s : S} {K : α → S → Prop} (h : Safe P B p s K) :
    Safe P B' p s K := Prog.safe_mono hB h (fun _ _ h => h)

theorem safe_bind {p : OutT Q R α} {f : α → OutT Q R β} {s : S} {K : β → S → Prop}
    (h : Safe P B p s (fun a s' => Safe P B (f a) s' K)) : Safe P B (p >>= f) s K := by
  have : ∀ (p : Prog Q R (Out α)) (s : S), Prog.Safe P B p s (fun a s' => Safe P B (f a) s' K) →
      Prog.Safe P B (Prog.bind p (cont f)) s K := by
    intro p
    induction p with
    | done o =>
      intro s h
      cases o with
      | ret a => exact h
      | panic => exact h
      | running => exact h
    | ask q k ih => intro s h; exact ⟨h.1, h.2.1, fun r hr => ih r _ (h.2.2 r hr)⟩
  exact this p s h

theorem safe_bind' {p : OutT Q R α} {f : α → OutT Q R β} {s : S} {K : β → S → Prop} {C : α → S → Prop}
    (h : Safe P B p s C) (hf : ∀ a s', C a s' → Safe P B (f a) s' K) : Safe P B (p >>= f) s K :=
  safe_bind (safe_mono h hf)

/-- Requests that never change the state. -/
theorem safe_of_asks {A : Q → Prop} {p : OutT Q R α} {s : S} (hB : B s) (hp : Asks A p)
    (hA : ∀ q, A q → P.allowed s q ∧ ∀ r, P.next s q r = s) {C : α → Prop} (hr : Returns C p) :
    Safe P B p s (fun a s' => C a ∧ s' = s) := by
  have : ∀ (p : Prog Q R (Out α)), Prog.Asks A p → Prog.Returns C p → Prog.Safe P B p s (fun a s' => C a ∧ s' = s) := by
    intro p
    induction p with
    | done o =>
      intro _ h
      cases o with
      | ret a => exact ⟨h, rfl⟩
      | panic => exact hB
      | running => exact hB
    | ask q k ih =>
      intro h h'
      refine ⟨hB, (hA q h.1).1, fun r _ => ?_⟩
      rw [(hA q h.1).2 r]
      exact ih r (h.2 r) (h' r)
  exact this p hp hr

/-- Replacing each request by a lower program that realises it. -/
theorem safe_interp {P' : Policy Q' R' S} (f : Q → OutT Q' R' R)
    (hf : ∀ q s, B s → P.allowed s q → Safe P' B (f q) s (fun r s' => P.answers s q r ∧ s' = P.next s q r))
    {p : OutT Q R α} {s : S} {K : α → S → Prop} (h : Safe P B p s K) : Safe P' B (interp f p) s K := by
  have : ∀ (p : Prog Q R (Out α)) (s : S), Prog.Safe P B p s K → Prog.Safe P' B (interp f p) s K := by
    intro p
    induction p with
    | done o =>
      intro s h
      cases o with
      | ret a => exact h
      | panic => exact h
      | running => exact h
    | ask q k ih =>
      intro s h
      refine safe_bind' (hf q s h.1 h.2.1) (fun r s' ⟨h1, h2⟩ => ?_)
      subst h2
      exact ih r _ (h.2.2 r h1)
  exact this p s h

/-- A deferred call after a safe program. -/
theorem safe_defer {p : OutT Q R α} {d : OutT Q R Unit} {s : S} {B' : S → Prop} {K C : α → S → Prop} (h : Safe P B p s C)
    (hB : ∀ s, B s → B' s) (hd : ∀ s', B s' → Safe P B' d s' (fun _ s'' => B' s''))
    (hr : ∀ a s', C a s' → Safe P B' d s' (fun _ s'' => K a s'')) : Safe P B' (defer p d) s K := by
  have hdone : ∀ (o : Out α) (d : Prog Q R (Out Unit)) (s' : S) (K' : S → Prop),
      Prog.Safe P B' d s' (fun _ s'' => K' s'') →
      (∀ s, K' s → Prog.Safe P B' (.done o : Prog Q R (Out α)) s K) →
      Prog.Safe P B' (Prog.bind d (fun x => .done (after o x))) s' K := by
    intro o d
    induction d with
    | done x =>
      intro s' K' h hk
      cases x with
      | ret u => exact hk s' h
      | panic => exact h
      | running => exact h
    | ask q k ih => intro s' K' h hk; exact ⟨h.1, h.2.1, fun r hr => ih r _ K' (h.2.2 r hr) hk⟩
  have : ∀ (p : Prog Q R (Out α)) (s : S), Prog.Safe P B p s C → Prog.Safe P B' (defer p d) s K := by
    intro p
    induction p with
    | done o =>
      intro s h
      cases o with
      | ret a => exact hdone (.ret a) d s (fun s'' => K a s'') (hr a s h) (fun _ h => h)
      | panic => exact hdone .panic d s B' (hd s h) (fun _ h => h)
      | running => exact hB s h
    | ask q k ih => intro s h; exact ⟨hB s h.1, h.2.1, fun r hr => ih r _ (h.2.2 r hr)⟩
  exact this p s h

/-- What safety means for a run against a sound environment. -/
theorem safe_run {s₀ : S} {env : Prog.Env Q R} (hs : P.Sound s₀ env) (h : Prog.Trace Q R) {p : OutT Q R α} {K : α → S → Prop}
    (hp : Safe P B p (P.after s₀ h) K) :
    P.Ok (P.after s₀ h) (run env h p).2 ∧
      match (run env h p).1 with
      | .ret a => K a (P.after s₀ (h ++ (run env h p).2))
      | _ => B (P.after s₀ (h ++ (run env h p).2)) := by
  have : ∀ (p : Prog Q R (Out α)) (h : Prog.Trace Q R), Prog.Safe P B p (P.after s₀ h) K →
      P.Ok (P.after s₀ h) (Prog.run env h p).2 ∧
      match (Prog.run env h p).1 with
      | .ret a => K a (P.after s₀ (h ++ (Prog.run env h p).2))
      | _ => B (P.after s₀ (h ++ (Prog.run env h p).2)) := by
    intro p
    induction p with
    | done o =>
      intro h hp
      simp only [Prog.run, List.append_nil]
      cases o <;> exact ⟨trivial, hp⟩
    | ask q k ih =>
      intro h hp
      rw [Prog.run_ask]
      have hn : P.after s₀ (h ++ [(q, env h q)]) = P.next (P.after s₀ h) q (env h q) := by rw [P.after_append]; rfl
      have := ih (env h q) (h ++ [(q, env h q)]) (by rw [hn]; exact hp.2.2 _ (hs h q))
      rw [hn] at this
      simp only [List.append_assoc, List.singleton_append] at this
      exact ⟨⟨hp.2.1, this.1⟩, this.2⟩
  exact this p h hp

end OutT
end Dparm
