import Verif.Lemmas.Asks
import Verif.Lemmas.Refine
/-!
# How many requests a program makes

Every request has a price, every answer may bring in something; a program pays its way if the balance never goes below
zero.
-/
namespace Dparm

/-- The sum over the exchanges. -/
def tally {Q R : Type} (w : Q → R → Nat) : Prog.Trace Q R → Nat
  | [] => 0
  | x :: t => w x.1 x.2 + tally w t

theorem tally_append {Q R : Type} (w : Q → R → Nat) (t u : Prog.Trace Q R) :
    tally w (t ++ u) = tally w t + tally w u := by
  induction t with
  | nil => simp [tally]
  | cons x t ih => simp only [List.cons_append, tally, ih]; omega

/-- Starting with `n`, the program always comes to an end, the balance never goes below zero, and when it returns `a` at
least `c a` is left. `w` is the price of a request, `g` what an answer brings in. -/
def Prog.Pays {Q R α : Type} (w : Q → Nat) (g : Q → R → Nat) : Nat → (α → Nat) → Prog Q R (Out α) → Prop
  | n, c, .done (.ret a) => c a ≤ n
  | _, _, .done .panic => True
  | _, _, .done .running => False
  | n, c, .ask q k => w q ≤ n ∧ ∀ r, Prog.Pays w g (n - w q + g q r) c (k r)

namespace OutT
variable {Q R Q' R' α β : Type} {w : Q → Nat} {g : Q → R → Nat}

def Pays (w : Q → Nat) (g : Q → R → Nat) (n : Nat) (c : α → Nat) (p : OutT Q R α) : Prop := Prog.Pays w g n c p

theorem _root_.Dparm.Prog.pays_mono {p : Prog Q R (Out α)} {n m : Nat} {c d : α → Nat} (h : Prog.Pays w g n c p)
    (hn : n ≤ m) (hc : ∀ a, d a ≤ c a + (m - n)) : Prog.Pays w g m d p := by
  induction p generalizing n m with
  | done o =>
    cases o with
    | ret a =>
      have h : c a ≤ n := h
      have := hc a
      show d a ≤ m
      omega
    | panic => trivial
    | running => exact h
  | ask q k ih =>
    obtain ⟨h1, h2⟩ := h
    exact ⟨by omega, fun r => ih r (h2 r) (by omega) (fun a => by have := hc a; omega)⟩

theorem pays_mono {p : OutT Q R α} {n m : Nat} {c d : α → Nat} (h : Pays w g n c p)
    (hn : n ≤ m) (hc : ∀ a, d a ≤ c a + (m - n)) : Pays w g m d p := Prog.pays_mono h hn hc

theorem pays_ret {n : Nat} {c : α → Nat} {a : α} (h : c a ≤ n) : Pays w g n c (ret a : OutT Q R α) := h
theorem pays_panic {n : Nat} {c : α → Nat} : Pays w g n c (panic : OutT Q R α) := trivial
theorem pays_lift {n : Nat} {c : α → Nat} {x : P α} (h : ∀ a, x = .ret a → c a ≤ n) :
    Pays w g n c (lift x : OutT Q R α) := by
  cases x with
  | panic => trivial
  | ret a => exact h a rfl

theorem pays_ask {n : Nat} {c : R → Nat} {q : Q} (h1 : w q ≤ n) (h2 : ∀ r, c r ≤ n - w q + g q r) :
    Pays w g n c (ask q : OutT Q R R) := ⟨h1, h2⟩

theorem _root_.Dparm.Prog.pays_bind {c : α → Nat} {d : β → Nat} (p : Prog Q R (Out α)) (f : α → OutT Q R β)
    (n : Nat) (hp : Prog.Pays w g n c p) (hf : ∀ a, Pays w g (c a) d (f a)) :
    Prog.Pays w g n d (Prog.bind p (cont f)) := by
  induction p generalizing n with
  | done o =>
    cases o with
    | ret a => exact Prog.pays_mono (hf a) hp (fun b => by omega)
    | panic => trivial
    | running => exact hp
  | ask q k ih => exact ⟨hp.1, fun r => ih r _ (hp.2 r)⟩

theorem pays_bind {n : Nat} {c : α → Nat} {d : β → Nat} {p : OutT Q R α} {f : α → OutT Q R β}
    (hp : Pays w g n c p) (hf : ∀ a, Pays w g (c a) d (f a)) : Pays w g n d (p >>= f) :=
  Prog.pays_bind p f n hp hf

theorem pays_ask_bind {n : Nat} {d : β → Nat} {q : Q} {f : R → OutT Q R β}
    (h1 : w q ≤ n) (h2 : ∀ r, Pays w g (n - w q + g q r) d (f r)) : Pays w g n d (ask q >>= f) :=
  ⟨h1, h2⟩

theorem pays_ite {n : Nat} {c : α → Nat} {b : Prop} [Decidable b] {p q : OutT Q R α} (hp : Pays w g n c p)
    (hq : Pays w g n c q) : Pays w g n c (if b then p else q) := by
  split
  · exact hp
  · exact hq

/-- A layer below: `f q` costs at most what the request `q` costs above, and brings in at least what its answer brings in
above. -/
theorem pays_interp {w' : Q' → Nat} {g' : Q' → R' → Nat} (f : Q → OutT Q' R' R) (n : Nat) (c : α → Nat)
    (p : Prog Q R (Out α)) (hp : Prog.Pays w g n c p) (hf : ∀ q, Pays w' g' (w q) (g q) (f q)) :
    Pays w' g' n c (interp f p) := by
  induction p generalizing n with
  | done o => cases o with
    | ret a => exact hp
    | panic => trivial
    | running => exact hp
  | ask q k ih =>
    obtain ⟨h1, h2⟩ := hp
    exact pays_bind (c := fun r => n - w q + g q r) (pays_mono (hf q) h1 (fun r => by omega)) (fun r => ih r _ (h2 r))

/-- A deferred call: what it costs is kept back. -/
theorem pays_defer {n k : Nat} {c : α → Nat} {p : OutT Q R α} {d : OutT Q R Unit} (hp : Pays w g n c p)
    (hd : Pays w g k (fun _ => 0) d) : Pays w g (n + k) c (defer p d) := by
  have after : ∀ (m : Nat) (o : Out α), (∀ a, o = .ret a → c a ≤ m) → o ≠ .running →
      Prog.Pays w g (m + k) c (Prog.bind d (fun x => Prog.done (after o x))) := by
    intro m o ho hr
    have hd' : Prog.Pays w g (m + k) (fun _ => m) d := Prog.pays_mono hd (by omega) (fun _ => by omega)
    generalize m + k = N at hd'
    clear hd hp
    have : ∀ (d : Prog Q R (Out Unit)) (N : Nat), Prog.Pays w g N (fun _ => m) d →
        Prog.Pays w g N c (Prog.bind d (fun x => Prog.done (OutT.after o x))) := by
      intro d
      induction d with
      | done x =>
        intro N h
        cases x with
        | ret u =>
          have h : m ≤ N := h
          show Prog.Pays w g N c (Prog.done o)
          cases o with
          | ret a => exact Nat.le_trans (ho a rfl) h
          | panic => trivial
          | running => exact absurd rfl hr
        | panic => trivial
        | running => exact h
      | ask q kk ih => intro N h; exact ⟨h.1, fun r => ih r _ (h.2 r)⟩
    exact this d N hd'
  have main : ∀ (p : Prog Q R (Out α)) (n : Nat), Prog.Pays w g n c p → Prog.Pays w g (n + k) c (defer p d) := by
    intro p
    induction p with
    | done o =>
      intro n hp
      cases o with
      | ret a => exact after n (.ret a) (fun b hb => by cases hb; exact hp) (by simp)
      | panic => exact after n .panic (fun b hb => by cases hb) (by simp)
      | running => exact hp
    | ask q kk ih =>
      intro n hp
      refine ⟨Nat.le_trans hp.1 (by omega), fun r => ?_⟩
      have := ih r _ (hp.2 r)
      have e : n + k - w q + g q r = n - w q + g q r + k := by have := hp.1; omega
      rw [e]
      exact this
  exact main p n hp

/-- What it means for runs. -/
theorem pays_run {n : Nat} {c : α → Nat} {p : OutT Q R α} (hp : Pays w g n c p) (env : Prog.Env Q R)
    (hist : Prog.Trace Q R) :
    (run env hist p).1 ≠ .running ∧
    tally (fun q _ => w q) (run env hist p).2 ≤ n + tally g (run env hist p).2 := by
  have : ∀ (p : Prog Q R (Out α)) (n : Nat) (hist : Prog.Trace Q R), Prog.Pays w g n c p →
      (Prog.run env hist p).1 ≠ .running ∧
      tally (fun q _ => w q) (Prog.run env hist p).2 ≤ n + tally g (Prog.run env hist p).2 := by
    intro p
    induction p with
    | done o =>
      intro n hist hp
      rw [Prog.run_done]
      cases o with
      | running => exact absurd hp id
      | ret a => exact ⟨by simp, by simp [tally]⟩
      | panic => exact ⟨by simp, by simp [tally]⟩
    | ask q k ih =>
      intro n hist hp
      obtain ⟨h1, h2⟩ := hp
      rw [Prog.run_ask]
      have := ih (env hist q) _ (hist ++ [(q, env hist q)]) (h2 _)
      refine ⟨this.1, ?_⟩
      simp only [tally]
      omega
  exact this p n hist hp

end OutT
end Dparm
