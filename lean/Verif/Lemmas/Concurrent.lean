import Verif.Model.Concurrent
import Verif.Lemmas.Policy
/-!
# Goroutines that do not share handles

Every goroutine of a pool sees what it would see alone, and works on what was lent to itself only.
-/
namespace Dparm

namespace Tagged
variable {Q R : Type}

@[simp] theorem whole_nil : Tagged.whole ([] : Tagged Q R) = [] := rfl
@[simp] theorem of_nil (i : Nat) : Tagged.of ([] : Tagged Q R) i = [] := rfl
theorem whole_append (t u : Tagged Q R) : (t ++ u : Tagged Q R).whole = t.whole ++ u.whole := List.map_append ..
theorem of_append (t u : Tagged Q R) (i : Nat) : (t ++ u : Tagged Q R).of i = t.of i ++ u.of i := by
  unfold Tagged.of; rw [List.filter_append, List.map_append]
theorem whole_snoc (t : Tagged Q R) (i : Nat) (x : Q × R) : (t ++ [(i, x)] : Tagged Q R).whole = t.whole ++ [x] := whole_append t _
theorem of_snoc (t : Tagged Q R) (i : Nat) (x : Q × R) : (t ++ [(i, x)] : Tagged Q R).of i = t.of i ++ [x] := by
  rw [of_append]; simp [Tagged.of]
theorem of_snoc_ne (t : Tagged Q R) {i j : Nat} (h : j ≠ i) (x : Q × R) : (t ++ [(i, x)] : Tagged Q R).of j = t.of j := by
  rw [of_append]; simp [Tagged.of, Ne.symm h]

end Tagged

/-- `p` becomes `p'` with these exchanges. -/
def Prog.Follows {Q R α : Type} : Prog Q R α → Prog.Trace Q R → Prog Q R α → Prop
  | p, [], p' => p = p'
  | p, x :: t, p' => ∃ k, p = .ask x.1 k ∧ Prog.Follows (k x.2) t p'

theorem Prog.Follows.snoc {Q R α : Type} {q : Q} {k : R → Prog Q R α} {t : Prog.Trace Q R} : ∀ {p : Prog Q R α},
    p.Follows t (.ask q k) → ∀ r, p.Follows (t ++ [(q, r)]) (k r) := by
  induction t with
  | nil => intro p h r; exact ⟨k, h, rfl⟩
  | cons x t ih => rintro p ⟨k', h1, h2⟩ r; exact ⟨k', h1, ih h2 r⟩

/-- An environment that gives the recorded answers. -/
def Replays {Q R : Type} (t : Prog.Trace Q R) (env : Prog.Env Q R) : Prop :=
  ∀ h q r rest, t = h ++ (q, r) :: rest → env h q = r

theorem Prog.Follows.run {Q R α : Type} {env : Prog.Env Q R} {t : Prog.Trace Q R} : ∀ {p p' : Prog Q R α} (h : Prog.Trace Q R),
    p.Follows t p' → Replays (h ++ t) env → (Prog.run env h p) = ((Prog.run env (h ++ t) p').1, t ++ (Prog.run env (h ++ t) p').2) := by
  induction t with
  | nil => rintro p p' h rfl _; simp
  | cons x t ih =>
    rintro p p' h ⟨k, rfl, h2⟩ hr
    rw [Prog.run_ask, hr h x.1 x.2 t rfl, ih (h ++ [x]) h2 (by simpa using hr)]
    simp

open Classical in
/-- The recorded answers, and others where nothing is recorded. -/
noncomputable def replay {Q R : Type} (t : Prog.Trace Q R) (other : Q → R) : Prog.Env Q R := fun h q =>
  if hx : ∃ r rest, t = h ++ (q, r) :: rest then hx.choose else other q

theorem replay_replays {Q R : Type} (t : Prog.Trace Q R) (other : Q → R) : Replays t (replay t other) := by
  intro h q r rest ht
  unfold replay
  have hx : ∃ r rest, t = h ++ (q, r) :: rest := ⟨r, rest, ht⟩
  rw [dif_pos hx]
  obtain ⟨rest', h2⟩ := hx.choose_spec
  have := List.append_cancel_left (ht.symm.trans h2)
  simp only [List.cons.injEq, Prod.mk.injEq, true_and] at this
  exact this.1.symm

theorem replay_cases {Q R : Type} (t : Prog.Trace Q R) (other : Q → R) (h : Prog.Trace Q R) (q : Q) :
    replay t other h q = other q ∨ ∃ rest, t = h ++ (q, replay t other h q) :: rest := by
  by_cases hx : ∃ r rest, t = h ++ (q, r) :: rest
  · obtain ⟨r, rest, ht⟩ := hx
    exact .inr ⟨rest, by rw [replay_replays t other h q r rest ht]; exact ht⟩
  · left; unfold replay; rw [dif_neg hx]

/-- From the state `s` on, every request is allowed. -/
def Prog.Allowed {Q R S α : Type} (P : Policy Q R S) : Prog Q R α → S → Prop
  | .done _, _ => True
  | .ask q k, s => P.allowed s q ∧ ∀ r, P.answers s q r → Prog.Allowed P (k r) (P.next s q r)

/-- A call that may panic, and what the client does next. -/
theorem Prog.allowed_bind {Q R S α β : Type} {P : Policy Q R S} {B : S → Prop} {f : Out α → Prog Q R β}
    {K : α → S → Prop} (hK : ∀ a s, K a s → Prog.Allowed P (f (.ret a)) s)
    (hB : ∀ s, B s → Prog.Allowed P (f .panic) s ∧ Prog.Allowed P (f .running) s) :
    ∀ {p : Prog Q R (Out α)} {s : S}, Prog.Safe P B p s K → Prog.Allowed P (Prog.bind p f) s := by
  intro p
  induction p with
  | done o =>
    intro s h
    cases o with
    | ret a => exact hK a s h
    | panic => exact (hB s h).1
    | running => exact (hB s h).2
  | ask q k ih => intro s h; exact ⟨h.2.1, fun r hr => ih r (h.2.2 r hr)⟩

theorem Prog.allowed_map {Q R S α β : Type} {P : Policy Q R S} {f : α → β} : ∀ {p : Prog Q R α} {s : S}, Prog.Allowed P p s →
    Prog.Allowed P (Prog.bind p (fun a => .done (f a))) s := by
  intro p
  induction p with
  | done a => intro s _; trivial
  | ask q k ih => intro s h; exact ⟨h.1, fun r hr => ih r (h.2 r hr)⟩

/-- A policy about things that are lent: a request works on one that is held, gives one back, or obtains a new one. -/
structure Lends {Q R X : Type} [DecidableEq X] (P : Policy Q R (List X)) (uses ends : Q → Option X) (gives : Q → R → Option X) :
    Prop where
  allowed : ∀ {s q}, P.allowed s q → ∀ x, uses q = some x → x ∈ s
  answers : ∀ {s q r}, (∀ x, gives q r = some x → x ∉ s) → P.answers s q r
  ended : ∀ {s q r x}, ends q = some x → P.next s q r = s.filter (· ≠ x)
  given : ∀ {s q r x}, ends q = none → gives q r = some x → P.next s q r = x :: s
  same : ∀ {s q r}, ends q = none → gives q r = none → P.next s q r = s
  ends_uses : ∀ {q x}, ends q = some x → uses q = some x

section
variable {Q R X α : Type} [DecidableEq X] {P : Policy Q R (List X)} {uses ends : Q → Option X} {gives : Q → R → Option X}

/-- The system lends nothing that is still lent to anybody. -/
def FreshFor (P : Policy Q R (List X)) (gives : Q → R → Option X) (env : SysEnv Q R) : Prop :=
  ∀ t i q x, gives q (env t i q) = some x → x ∉ P.after [] (Tagged.whole t)

/-- What is true of an exchange in a pool. -/
structure OkAt (P : Policy Q R (List X)) (uses : Q → Option X) (gives : Q → R → Option X) (t : Tagged Q R) (i : Nat) (q : Q) (r : R) :
    Prop where
  mine : ∀ x, uses q = some x → x ∈ P.after [] (t.of i)
  others : ∀ x, uses q = some x → ∀ j, j ≠ i → x ∉ P.after [] (t.of j)
  isOpen : ∀ x, uses q = some x → x ∈ P.after [] t.whole
  fresh : ∀ x, gives q r = some x → ∀ j, x ∉ P.after [] (t.of j)

/-- The state of a pool. -/
structure PoolInv (P : Policy Q R (List X)) (uses : Q → Option X) (gives : Q → R → Option X) (s₀ s : Pool Q R α) : Prop where
  safe : ∀ (i : Nat) p, s.threads[i]? = some p → Prog.Allowed P p (P.after [] (s.trace.of i))
  disj : ∀ (i j : Nat) x, i ≠ j → x ∈ P.after [] (s.trace.of i) → x ∉ P.after [] (s.trace.of j)
  all : ∀ x, x ∈ P.after [] s.trace.whole ↔ ∃ i, x ∈ P.after [] (s.trace.of i)
  ok : ∀ t₁ i q r t₂, s.trace = t₁ ++ (i, q, r) :: t₂ → OkAt P uses gives t₁ i q r
  follows : ∀ (i : Nat) p, s₀.threads[i]? = some p → ∃ p', s.threads[i]? = some p' ∧ p.Follows (s.trace.of i) p'
  length : s.threads.length = s₀.threads.length

omit [DecidableEq X] in
theorem Policy.after_snoc (P : Policy Q R (List X)) (t : Prog.Trace Q R) (x : Q × R) :
    P.after [] (t ++ [x]) = P.next (P.after [] t) x.1 x.2 := by rw [P.after_append]; rfl

theorem poolInv_step (hL : Lends P uses ends gives) {env : SysEnv Q R} (hf : FreshFor P gives env) {s₀ s : Pool Q R α}
    (h : PoolInv P uses gives s₀ s) (i : Nat) : PoolInv P uses gives s₀ (s.step env i) := by
  unfold Pool.step
  split
  case h_2 => exact h
  case h_1 _ q k hi =>
    obtain ⟨r, hr⟩ : ∃ r, r = env s.trace i q := ⟨_, rfl⟩
    rw [← hr]
    have hlt : i < s.threads.length := (List.getElem?_eq_some_iff.1 hi).1
    have hs := h.safe i _ hi
    have hfresh : ∀ x, gives q r = some x → ∀ j, x ∉ P.after [] (s.trace.of j) := by
      intro x hx j hj
      rw [hr] at hx
      exact hf s.trace i q x hx ((h.all x).2 ⟨j, hj⟩)
    have hans : P.answers (P.after [] (s.trace.of i)) q r := hL.answers (fun x hx => hfresh x hx i)
    have hok : OkAt P uses gives s.trace i q r :=
      { mine := hL.allowed hs.1
        others := fun x hx j hj => h.disj i j x (Ne.symm hj) (hL.allowed hs.1 x hx)
        isOpen := fun x hx => (h.all x).2 ⟨i, hL.allowed hs.1 x hx⟩
        fresh := hfresh }
    have hown : P.after [] ((s.trace ++ [(i, q, r)] : Tagged Q R).of i) = P.next (P.after [] (s.trace.of i)) q r := by
      rw [Tagged.of_snoc, P.after_snoc]
    have hoth : ∀ j, j ≠ i → P.after [] ((s.trace ++ [(i, q, r)] : Tagged Q R).of j) = P.after [] (s.trace.of j) := by
      intro j hj; rw [Tagged.of_snoc_ne _ hj]
    have hall : P.after [] (s.trace ++ [(i, q, r)] : Tagged Q R).whole = P.next (P.after [] s.trace.whole) q r := by
      rw [Tagged.whole_snoc, P.after_snoc]
    -- membership in what the goroutine holds afterwards
    have hmem : ∀ x, x ∈ P.next (P.after [] (s.trace.of i)) q r →
        x ∈ P.after [] (s.trace.of i) ∨ (∀ j, x ∉ P.after [] (s.trace.of j)) := by
      intro x hx
      cases he : ends q with
      | some y => rw [hL.ended he, List.mem_filter] at hx; exact .inl hx.1
      | none => cases hg : gives q r with
        | none => rw [hL.same he hg] at hx; exact .inl hx
        | some y =>
          rw [hL.given he hg] at hx
          rcases List.mem_cons.1 hx with rfl | hx
          · exact .inr (hfresh x hg)
          · exact .inl hx
    refine { safe := ?_, disj := ?_, all := ?_, ok := ?_, follows := ?_, length := ?_ }
    · intro j p hj
      dsimp only at hj ⊢
      rw [List.getElem?_set] at hj
      split at hj
      · rename_i hij
        subst hij
        cases hj
        rw [hown]
        exact hs.2 r hans
      · rename_i hij
        rw [hoth j (Ne.symm hij)]
        exact h.safe j p hj
    · intro a b x hab ha hb
      dsimp only at ha hb
      by_cases hai : a = i
      · subst hai
        rw [hown] at ha
        rw [hoth b (Ne.symm hab)] at hb
        rcases hmem x ha with h1 | h1
        · exact h.disj a b x hab h1 hb
        · exact h1 b hb
      · rw [hoth a hai] at ha
        by_cases hbi : b = i
        · subst hbi
          rw [hown] at hb
          rcases hmem x hb with h1 | h1
          · exact h.disj a b x hab ha h1
          · exact h1 a ha
        · rw [hoth b hbi] at hb
          exact h.disj a b x hab ha hb
    · intro x
      dsimp only
      rw [hall]
      have key : (∃ j, x ∈ P.after [] ((s.trace ++ [(i, q, r)] : Tagged Q R).of j)) ↔
          x ∈ P.next (P.after [] (s.trace.of i)) q r ∨ ∃ j, j ≠ i ∧ x ∈ P.after [] (s.trace.of j) := by
        constructor
        · rintro ⟨j, hj⟩
          by_cases hji : j = i
          · subst hji; rw [hown] at hj; exact .inl hj
          · rw [hoth j hji] at hj; exact .inr ⟨j, hji, hj⟩
        · rintro (hj | ⟨j, hji, hj⟩)
          · exact ⟨i, by rw [hown]; exact hj⟩
          · exact ⟨j, by rw [hoth j hji]; exact hj⟩
      rw [key]
      have hsplit : (∃ j, x ∈ P.after [] (s.trace.of j)) ↔
          x ∈ P.after [] (s.trace.of i) ∨ ∃ j, j ≠ i ∧ x ∈ P.after [] (s.trace.of j) := by
        constructor
        · rintro ⟨j, hj⟩
          by_cases hji : j = i
          · exact .inl (hji ▸ hj)
          · exact .inr ⟨j, hji, hj⟩
        · rintro (hj | ⟨j, _, hj⟩)
          · exact ⟨i, hj⟩
          · exact ⟨j, hj⟩
      cases he : ends q with
      | some y =>
        rw [hL.ended he, hL.ended he, List.mem_filter, List.mem_filter, h.all x, hsplit]
        have hy := hL.allowed hs.1 y (hL.ends_uses he)
        constructor
        · rintro ⟨h1 | h1, h2⟩
          · exact .inl ⟨h1, h2⟩
          · exact .inr h1
        · rintro (⟨h1, h2⟩ | ⟨j, hj, h1⟩)
          · exact ⟨.inl h1, h2⟩
          · refine ⟨.inr ⟨j, hj, h1⟩, ?_⟩
            simp only [ne_eq, decide_not, Bool.not_eq_eq_eq_not, Bool.not_true, decide_eq_false_iff_not]
            rintro rfl
            exact h.disj i j x (Ne.symm hj) hy h1
      | none => cases hg : gives q r with
        | none => rw [hL.same he hg, hL.same he hg, h.all x, hsplit]
        | some y => rw [hL.given he hg, hL.given he hg, List.mem_cons, List.mem_cons, h.all x, hsplit, or_assoc]
    · intro t₁ j q' r' t₂ ht
      dsimp only at ht
      rcases List.eq_nil_or_concat t₂ with rfl | ⟨t₂, y, rfl⟩
      · have := List.append_inj' ht rfl
        obtain ⟨h1, h2⟩ := this
        cases h2
        rw [← h1]
        exact hok
      · rw [show t₁ ++ (j, q', r') :: t₂.concat y = (t₁ ++ (j, q', r') :: t₂) ++ [y] by simp] at ht
        exact h.ok t₁ j q' r' t₂ (List.append_inj' ht rfl).1
    · intro j p hj
      obtain ⟨p', h1, h2⟩ := h.follows j p hj
      dsimp only
      by_cases hji : j = i
      · subst hji
        rw [hi] at h1
        cases h1
        refine ⟨k r, by rw [List.getElem?_set_self hlt], ?_⟩
        rw [Tagged.of_snoc]
        exact h2.snoc r
      · refine ⟨p', by rw [List.getElem?_set_ne (Ne.symm hji)]; exact h1, ?_⟩
        rw [Tagged.of_snoc_ne _ hji]
        exact h2
    · simpa using h.length

theorem poolInv_start {s₀ : Pool Q R α} (ht : s₀.trace = []) (hs : ∀ p ∈ s₀.threads, Prog.Allowed P p []) :
    PoolInv P uses gives s₀ s₀ := by
  refine { safe := ?_, disj := ?_, all := ?_, ok := ?_, follows := ?_, length := rfl }
  · intro i p hp; rw [ht]; exact hs p (List.mem_of_getElem? hp)
  · intro i j x _ hx; rw [ht] at hx; cases hx
  · intro x
    rw [ht]
    exact ⟨(fun h => by cases h), (fun ⟨_, h⟩ => by cases h)⟩
  · intro t₁ i q r t₂ h; rw [ht] at h; cases t₁ <;> cases h
  · intro i p hp; exact ⟨p, hp, by rw [ht]; rfl⟩

theorem poolInv_run (hL : Lends P uses ends gives) {env : SysEnv Q R} (hf : FreshFor P gives env) {s₀ : Pool Q R α}
    (sched : List Nat) : ∀ s, PoolInv P uses gives s₀ s → PoolInv P uses gives s₀ (s.run env sched) := by
  induction sched with
  | nil => intro s h; exact h
  | cons i sched ih => intro s h; exact ih _ (poolInv_step hL hf h i)

/-- A goroutine's own exchanges, seen as those of a program alone: nothing is lent to it twice. -/
theorem PoolInv.own_fresh {s₀ s : Pool Q R α} (h : PoolInv P uses gives s₀ s) (i : Nat) {t : Prog.Trace Q R} {q : Q} {r : R}
    {rest : Prog.Trace Q R} (ht : s.trace.of i = t ++ (q, r) :: rest) {x : X} (hx : gives q r = some x) : x ∉ P.after [] t := by
  -- find the exchange in the whole trace
  have : ∀ (u : Tagged Q R) (t : Prog.Trace Q R), u.of i = t ++ (q, r) :: rest →
      ∃ t₁ t₂, u = t₁ ++ (i, q, r) :: t₂ ∧ Tagged.of t₁ i = t := by
    intro u
    induction u with
    | nil => intro t ht; cases t <;> cases ht
    | cons y u ih =>
      intro t ht
      by_cases hy : y.1 = i
      · rw [show Tagged.of (y :: u : Tagged Q R) i = y.2 :: Tagged.of u i by simp [Tagged.of, hy]] at ht
        cases t with
        | nil =>
          simp only [List.nil_append, List.cons.injEq] at ht
          refine ⟨[], u, ?_, rfl⟩
          rw [← hy, ← ht.1]; rfl
        | cons z t =>
          simp only [List.cons_append, List.cons.injEq] at ht
          obtain ⟨t₁, t₂, h1, h2⟩ := ih t ht.2
          refine ⟨y :: t₁, t₂, by rw [h1]; rfl, ?_⟩
          rw [show Tagged.of (y :: t₁ : Tagged Q R) i = y.2 :: Tagged.of t₁ i by simp [Tagged.of, hy], h2, ht.1]
      · rw [show Tagged.of (y :: u : Tagged Q R) i = Tagged.of u i by simp [Tagged.of, hy]] at ht
        obtain ⟨t₁, t₂, h1, h2⟩ := ih t ht
        refine ⟨y :: t₁, t₂, by rw [h1]; rfl, ?_⟩
        rw [show Tagged.of (y :: t₁ : Tagged Q R) i = Tagged.of t₁ i by simp [Tagged.of, hy], h2]
  obtain ⟨t₁, t₂, h1, rfl⟩ := this s.trace t ht
  exact (h.ok t₁ i q r t₂ h1).fresh x hx i

end

/-- Nobody makes system calls under a number that no goroutine has. -/
theorem pool_of_none {Q R α : Type} {env : SysEnv Q R} {s : Pool Q R α} (ht : s.trace = []) (sched : List Nat) {i : Nat}
    (hi : s.threads.length ≤ i) : (s.run env sched).trace.of i = [] := by
  have key : ∀ (sched : List Nat) (s : Pool Q R α), s.threads.length ≤ i → s.trace.of i = [] →
      (s.run env sched).trace.of i = [] := by
    intro sched
    induction sched with
    | nil => intro s _ h; exact h
    | cons j sched ih =>
      intro s hl h
      refine ih (s.step env j) ?_ ?_
      · unfold Pool.step
        split
        · simpa using hl
        · exact hl
      · unfold Pool.step
        split
        · rename_i hj
          have : i ≠ j := by
            have := (List.getElem?_eq_some_iff.1 hj).1
            omega
          dsimp only
          rw [Tagged.of_snoc_ne _ this]
          exact h
        · exact h
  exact key sched s hi (by rw [ht]; rfl)

/-- Every goroutine goes on from where its own exchanges left it. -/
theorem pool_follows {Q R α : Type} {env : SysEnv Q R} (s₀ : Pool Q R α) (ht : s₀.trace = []) (sched : List Nat) (i : Nat)
    (p : Prog Q R α) (hp : s₀.threads[i]? = some p) :
    ∃ p', (s₀.run env sched).threads[i]? = some p' ∧ p.Follows ((s₀.run env sched).trace.of i) p' := by
  have key : ∀ (sched : List Nat) (s : Pool Q R α), (∃ p', s.threads[i]? = some p' ∧ p.Follows (s.trace.of i) p') →
      ∃ p', (s.run env sched).threads[i]? = some p' ∧ p.Follows ((s.run env sched).trace.of i) p' := by
    intro sched
    induction sched with
    | nil => intro s h; exact h
    | cons j sched ih =>
      rintro s ⟨p', h1, h2⟩
      refine ih (s.step env j) ?_
      unfold Pool.step
      split
      · rename_i q k hj
        dsimp only
        by_cases hji : j = i
        · subst hji
          rw [hj] at h1
          cases h1
          refine ⟨_, List.getElem?_set_self (List.getElem?_eq_some_iff.1 hj).1, ?_⟩
          rw [Tagged.of_snoc]
          exact h2.snoc _
        · refine ⟨p', by rw [List.getElem?_set_ne hji]; exact h1, ?_⟩
          rw [Tagged.of_snoc_ne _ (Ne.symm hji)]
          exact h2
      · exact ⟨p', h1, h2⟩
  exact key sched s₀ ⟨p, hp, by rw [ht]; rfl⟩

/-- The exchanges of a goroutine that has ended are those of its program alone, on a system that gives the same answers. -/
theorem pool_ended_run {Q R α : Type} {env : SysEnv Q R} (s₀ : Pool Q R α) (ht : s₀.trace = []) (sched : List Nat) (i : Nat)
    (p : Prog Q R α) (hp : s₀.threads[i]? = some p) (a : α) (ha : (s₀.run env sched).threads[i]? = some (.done a)) (other : Q → R) :
    Prog.run (replay ((s₀.run env sched).trace.of i) other) [] p = (a, (s₀.run env sched).trace.of i) := by
  obtain ⟨p', h1, h2⟩ := pool_follows (env := env) s₀ ht sched i p hp
  rw [ha] at h1
  cases h1
  have := Prog.Follows.run (env := replay ((s₀.run env sched).trace.of i) other) [] h2 (replay_replays _ _)
  rw [Prog.run_done, List.append_nil] at this
  exact this

/-- A goroutine makes no other requests than its program. -/
theorem Prog.Follows.asks {Q R α : Type} {A : Q → Prop} {t : Prog.Trace Q R} : ∀ {p p' : Prog Q R α}, p.Follows t p' →
    Prog.Asks A p → ∀ x ∈ t, A x.1 := by
  induction t with
  | nil => intro p p' _ _ x hx; cases hx
  | cons y t ih =>
    rintro p p' ⟨k, rfl, h2⟩ ha x hx
    rcases List.mem_cons.1 hx with rfl | hx
    · exact ha.1
    · exact ih h2 (ha.2 _) x hx

theorem pool_run_append {Q R α : Type} {env : SysEnv Q R} (s : Pool Q R α) (a b : List Nat) :
    s.run env (a ++ b) = (s.run env a).run env b := List.foldl_append ..

/-- Steps of a goroutine change nothing of another. -/
theorem pool_run_other {Q R α : Type} {env : SysEnv Q R} {i j : Nat} (hij : i ≠ j) (n : Nat) : ∀ (s : Pool Q R α),
    (s.run env (List.replicate n i)).threads[j]? = s.threads[j]? ∧ (s.run env (List.replicate n i)).trace.of j = s.trace.of j := by
  induction n with
  | zero => intro s; exact ⟨rfl, rfl⟩
  | succ n ih =>
    intro s
    have h := ih (s.step env i)
    rw [List.replicate_succ]
    have hs : (s.step env i).threads[j]? = s.threads[j]? ∧ (s.step env i).trace.of j = s.trace.of j := by
      unfold Pool.step
      split
      · exact ⟨List.getElem?_set_ne hij, Tagged.of_snoc_ne _ (Ne.symm hij) _⟩
      · exact ⟨rfl, rfl⟩
    exact ⟨h.1.trans hs.1, h.2.trans hs.2⟩

/-- Steps of one goroutine only add exchanges of it. -/
theorem pool_run_solo {Q R α : Type} {env : SysEnv Q R} {i : Nat} (n : Nat) : ∀ (s : Pool Q R α),
    ∃ u, (s.run env (List.replicate n i)).trace = s.trace ++ u.map (fun x => (i, x)) ∧
      (s.run env (List.replicate n i)).trace.of i = s.trace.of i ++ u := by
  induction n with
  | zero => intro s; exact ⟨[], by simp [Pool.run], by simp [Pool.run]⟩
  | succ n ih =>
    intro s
    obtain ⟨u, h1, h2⟩ := ih (s.step env i)
    rw [List.replicate_succ]
    have hs : ∃ v, (s.step env i).trace = s.trace ++ v.map (fun x => (i, x)) ∧ (s.step env i).trace.of i = s.trace.of i ++ v := by
      unfold Pool.step
      split
      · exact ⟨[_], rfl, Tagged.of_snoc ..⟩
      · exact ⟨[], by simp, by simp⟩
    obtain ⟨v, h3, h4⟩ := hs
    refine ⟨v ++ u, ?_, ?_⟩
    · exact h1.trans (by rw [h3]; simp)
    · exact h2.trans (by rw [h4]; simp)

/-- A goroutine that gets its turn often enough ends, whatever the others have done: nobody waits for anybody. -/
theorem pool_solo_ends {Q R α : Type} (env : SysEnv Q R) (i : Nat) (p : Prog Q R α) : ∀ (s : Pool Q R α), s.threads[i]? = some p →
    ∃ n, ∃ a, (s.run env (List.replicate n i)).threads[i]? = some (.done a) := by
  induction p with
  | done a => intro s hs; exact ⟨0, a, hs⟩
  | ask q k ih =>
    intro s hs
    have hstep : s.step env i = { threads := s.threads.set i (k (env s.trace i q)), trace := s.trace ++ [(i, q, env s.trace i q)] } := by
      unfold Pool.step; rw [hs]
    obtain ⟨n, a, h⟩ := ih (env s.trace i q) (s.step env i) (by
      rw [hstep, List.getElem?_set_self (List.getElem?_eq_some_iff.1 hs).1])
    exact ⟨n + 1, a, h⟩

end Dparm
