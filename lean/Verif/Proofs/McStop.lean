import Verif.Proofs.McLive
import Mathlib.Tactic.Ring
import Mathlib.Tactic.Linarith
import Mathlib.Tactic.Positivity
import Mathlib.Tactic.FieldSimp
/-!
# When the threads of the random simulation stop
-/
namespace Pokers
open Spec CombinedRange

section
variable {sqrt : ℚ → ℚ} {target : ℚ} {ranges : List (List Combo)} {b d : Nat} {s : Sim} {r0 : Results} {nT : Nat}

/-- What a step of a thread does, by the place where the thread is. -/
def StepEffect (sqrt : ℚ → ℚ) (target : ℚ) (s : Sim) (l l' : McLocal) (g g' : McShared) : Prop :=
  match l.pc with
  | .start => g' = g ∧ l'.stats = l.stats ∧ l'.hands = l.hands ∧ (l'.pc = .eval ∨ l'.pc = .final ∨ l'.pc = .panicked)
  | .eval => g' = g ∧ (l'.pc = .flush ∨ l'.pc = .move ∨ l'.pc = .panicked) ∧
      (l'.pc ≠ .panicked → l'.stats.evalCount = l.stats.evalCount + 1)
  | .flush => g' = g.update sqrt target s false l ∧ l' = { l with pc := .check, stats := Batch.init s.nPlayers, hands := HandStats.init }
  | .check => g' = g ∧ l' = { l with pc := if g.stopped then .final else .restart }
  | .restart => g' = g ∧ l'.stats = l.stats ∧ l'.hands = l.hands ∧ (l'.pc = .move ∨ l'.pc = .final ∨ l'.pc = .panicked)
  | .move => g' = g ∧ l'.stats = l.stats ∧ l'.hands = l.hands ∧ (l'.pc = .eval ∨ l'.pc = .panicked)
  | .final => g' = g.update sqrt target s true l ∧ l' = { l with pc := .done }
  | .done => g' = g ∧ l' = l
  | .panicked => g' = g ∧ l' = l

theorem mcStep_effect {l l' : McLocal} {g g' : McShared} {ds rest : Draws} (h : mcStep sqrt target s l g ds = .ok (l', g') rest) :
    StepEffect sqrt target s l l' g g' := by
  unfold mcStep at h
  unfold StepEffect
  cases hpc : l.pc with
  | start =>
    rw [hpc] at h
    simp only at h ⊢
    cases hr : randomizeHoleCards s l.walk ds with
    | ok a rest' =>
      rw [hr] at h
      obtain ⟨ok, w⟩ := a
      simp only at h
      injection h with h _
      injection h with h1 h2
      subst h1; subst h2
      refine ⟨rfl, rfl, rfl, ?_⟩
      cases ok <;> simp
    | more => rw [hr] at h; cases h
    | panic =>
      rw [hr] at h
      injection h with h _
      injection h with h1 h2
      subst h1; subst h2
      exact ⟨rfl, rfl, rfl, Or.inr (Or.inr rfl)⟩
  | eval =>
    rw [hpc] at h
    simp only at h ⊢
    cases hr : evalDeal s l ds with
    | ok a rest' =>
      rw [hr] at h
      simp only at h
      injection h with h _
      injection h with h1 h2
      subst h1; subst h2
      refine ⟨rfl, ?_, fun _ => ?_⟩
      · simp only
        split <;> simp
      · unfold evalDeal at hr
        split at hr
        · cases hr
        · split at hr
          · injection hr with hr _
            rw [← hr]
            rfl
          · cases hr
          · cases hr
    | more => rw [hr] at h; cases h
    | panic =>
      rw [hr] at h
      injection h with h _
      injection h with h1 h2
      subst h1; subst h2
      exact ⟨rfl, Or.inr (Or.inr rfl), fun h => absurd rfl h⟩
  | flush =>
    rw [hpc] at h
    injection h with h _
    injection h with h1 h2
    subst h1; subst h2
    exact ⟨rfl, rfl⟩
  | check =>
    rw [hpc] at h
    injection h with h _
    injection h with h1 h2
    subst h1; subst h2
    exact ⟨rfl, rfl⟩
  | restart =>
    rw [hpc] at h
    simp only at h ⊢
    cases hr : randomizeHoleCards s l.walk ds with
    | ok a rest' =>
      rw [hr] at h
      obtain ⟨ok, w⟩ := a
      simp only at h
      injection h with h _
      injection h with h1 h2
      subst h1; subst h2
      refine ⟨rfl, rfl, rfl, ?_⟩
      cases ok <;> simp
    | more => rw [hr] at h; cases h
    | panic =>
      rw [hr] at h
      injection h with h _
      injection h with h1 h2
      subst h1; subst h2
      exact ⟨rfl, rfl, rfl, Or.inr (Or.inr rfl)⟩
  | move =>
    rw [hpc] at h
    simp only at h ⊢
    cases hr : sample s.combinedRanges.length ds with
    | ok i rest' =>
      rw [hr] at h
      simp only at h
      cases hc : s.combinedRanges[i]? with
      | none =>
        rw [hc] at h
        injection h with h _
        injection h with h1 h2
        subst h1; subst h2
        exact ⟨rfl, rfl, rfl, Or.inr rfl⟩
      | some cr =>
        rw [hc] at h
        simp only at h
        cases hd : redeal cr i l.walk with
        | none =>
          rw [hd] at h
          injection h with h _
          injection h with h1 h2
          subst h1; subst h2
          exact ⟨rfl, rfl, rfl, Or.inr rfl⟩
        | some w =>
          rw [hd] at h
          injection h with h _
          injection h with h1 h2
          subst h1; subst h2
          exact ⟨rfl, rfl, rfl, Or.inl rfl⟩
    | more => rw [hr] at h; cases h
    | panic =>
      rw [hr] at h
      injection h with h _
      injection h with h1 h2
      subst h1; subst h2
      exact ⟨rfl, rfl, rfl, Or.inr rfl⟩
  | final =>
    rw [hpc] at h
    injection h with h _
    injection h with h1 h2
    subst h1; subst h2
    exact ⟨rfl, rfl⟩
  | done =>
    rw [hpc] at h
    injection h with h _
    injection h with h1 h2
    subst h1; subst h2
    exact ⟨rfl, rfl⟩
  | panicked =>
    rw [hpc] at h
    injection h with h _
    injection h with h1 h2
    subst h1; subst h2
    exact ⟨rfl, rfl⟩

/-- The number of evaluations a thread has not added to the results, at a flush and at the end. -/
theorem McInv.evalCount {w : McWorld} {hist : List (Batch × HandStats)} {Dr : List (List WHand × List Nat)}
    {Dl : Nat → List (List WHand × List Nat)} (h : McInv sqrt ranges b d s r0 nT w hist Dr Dl) {t : Nat} (ht : t < nT) :
    LenAt (w.locals t).pc (w.locals t).stats.evalCount := by
  have h1 : (w.locals t).stats.evalCount = (Dl t).length := congrArg Prod.snd (h.loc t ht)
  rw [h1]
  exact h.len t ht

theorem update_evalCount (f : Bool) (l : McLocal) (g : McShared) :
    (g.update sqrt target s f l).results.evalCount = g.results.evalCount + l.stats.evalCount := by
  unfold McShared.update updateResults
  simp only
  split <;> rfl

theorem update_sent (f : Bool) (l : McLocal) (g : McShared) : (g.update sqrt target s f l).sent.length = g.sent.length + 1 := by
  unfold McShared.update
  simp

/-! ## The number of progress values -/

/-- The number of threads that have finished. -/
def doneCount (w : McWorld) (nT : Nat) : Nat := (List.range nT).countP fun t => decide ((w.locals t).pc = .done)

theorem countP_update {α : Type} (P : α → Bool) (f : Nat → α) (n t : Nat) (ht : t < n) (a : α) :
    (List.range n).countP (fun i => P (Function.update f t a i)) + (if P (f t) then 1 else 0) =
      (List.range n).countP (fun i => P (f i)) + (if P a then 1 else 0) := by
  induction n with
  | zero => omega
  | succ n ih =>
    rw [List.range_succ, List.countP_append, List.countP_append, List.countP_singleton, List.countP_singleton]
    by_cases hn : t = n
    · subst hn
      rw [Function.update_self]
      have : (List.range t).countP (fun i => P (Function.update f t a i)) = (List.range t).countP (fun i => P (f i)) := by
        apply List.countP_congr
        intro i hi
        rw [Function.update_of_ne (by have := List.mem_range.1 hi; omega)]
      omega
    · rw [Function.update_of_ne (by omega)]
      have := ih (by omega)
      omega

theorem doneCount_update (w : McWorld) (nT t : Nat) (ht : t < nT) (l : McLocal) (g : McShared) :
    doneCount { locals := Function.update w.locals t l, shared := g } nT + (if (w.locals t).pc = .done then 1 else 0) =
      doneCount w nT + (if l.pc = .done then 1 else 0) := by
  have := countP_update (fun l : McLocal => decide (l.pc = .done)) w.locals nT t ht l
  simpa [doneCount] using this

/-- Every progress value belongs to 4096 evaluations or to a thread that has finished. -/
theorem sent_count (hr : McReady ranges b d s) (h0 : r0.evalCount = 0) {cancelled : Bool} {w : McWorld}
    (hs : McSteps sqrt target s nT (McWorld.init s r0 cancelled) w) :
    4096 * w.shared.sent.length = w.shared.results.evalCount + 4096 * doneCount w nT := by
  induction hs with
  | refl =>
    have : doneCount (McWorld.init s r0 cancelled) nT = 0 := by
      unfold doneCount
      rw [List.countP_eq_zero]
      intro t _
      rw [decide_eq_true_iff]
      exact fun h => by cases h
    rw [this]
    show 4096 * 0 = r0.evalCount + _
    omega
  | @step u v hsteps hstep ih =>
    obtain ⟨hist, Dr, Dl, hi⟩ := McInv.steps hr hsteps
    cases hstep with
    | cancel => exact ih
    | thread t ht hpc ds l g h =>
      have he := mcStep_effect h
      have hd := doneCount_update u nT t ht l g
      rw [if_neg hpc.1] at hd
      have hc := hi.evalCount ht
      unfold StepEffect at he
      generalize hw : u.locals t = l0 at he hpc hc hd
      cases hp : l0.pc with
      | start =>
        rw [hp] at he
        obtain ⟨rfl, _, _, he⟩ := he
        rw [if_neg (by rcases he with he | he | he <;> rw [he] <;> decide)] at hd
        simp only at hd ⊢
        omega
      | eval =>
        rw [hp] at he
        obtain ⟨rfl, he, _⟩ := he
        rw [if_neg (by rcases he with he | he | he <;> rw [he] <;> decide)] at hd
        simp only at hd ⊢
        omega
      | flush =>
        rw [hp] at he hc
        obtain ⟨rfl, he⟩ := he
        rw [if_neg (by rw [he]; exact fun h => by cases h)] at hd
        simp only at hd ⊢
        rw [update_sent, update_evalCount]
        change l0.stats.evalCount = 4096 at hc
        omega
      | check =>
        rw [hp] at he
        obtain ⟨rfl, he⟩ := he
        have hne : l.pc ≠ .done := by rw [he]; cases u.shared.stopped <;> simp
        rw [if_neg hne] at hd
        simp only at hd ⊢
        omega
      | restart =>
        rw [hp] at he
        obtain ⟨rfl, _, _, he⟩ := he
        rw [if_neg (by rcases he with he | he | he <;> rw [he] <;> decide)] at hd
        simp only at hd ⊢
        omega
      | move =>
        rw [hp] at he
        obtain ⟨rfl, _, _, he⟩ := he
        rw [if_neg (by rcases he with he | he <;> rw [he] <;> decide)] at hd
        simp only at hd ⊢
        omega
      | final =>
        rw [hp] at he hc
        obtain ⟨rfl, he⟩ := he
        rw [if_pos (by rw [he])] at hd
        simp only at hd ⊢
        rw [update_sent, update_evalCount]
        change l0.stats.evalCount = 0 at hc
        omega
      | done => exact absurd hp hpc.1
      | panicked => exact absurd hp hpc.2

theorem doneCount_all {w : McWorld} (h : ∀ t < nT, (w.locals t).pc = .done) : doneCount w nT = nT := by
  unfold doneCount
  have : (List.range nT).countP (fun t => decide ((w.locals t).pc = .done)) = (List.range nT).length := by
    rw [List.countP_eq_length]
    intro t ht
    rw [decide_eq_true_iff]
    exact h t (List.mem_range.1 ht)
  rw [this, List.length_range]

/-! ## One batch is enough -/

/-- The fields from which the deviation is computed. -/
def NoBatch (r : Results) : Prop := r.batchSum = 0 ∧ r.batchSum2 = 0 ∧ r.batchCount = 0

theorem start_noBatch {flag : Nat} (h : startResults s = some (r0, flag)) : NoBatch r0 := by
  unfold startResults at h
  simp only at h
  obtain ⟨hr, _, h2⟩ := Option.map_eq_some_iff.1 h
  have h3 := (Prod.mk.inj h2).1
  subst h3
  exact ⟨rfl, rfl, rfl⟩

/-- The deviation computed from a single batch does not depend on the batch. -/
theorem first_stdev {r : Results} (h : NoBatch r) (n : Nat) (bt : Batch) (hb : HandStats) :
    (updateResults sqrt n false bt hb r).stdev = sqrt eps ∧ (updateResults sqrt n false bt hb r).batchCount = 1 := by
  obtain ⟨h1, h2, h3⟩ := h
  unfold updateResults
  simp only [if_false, Bool.false_eq_true]
  rw [h1, h2, h3]
  refine ⟨?_, by norm_num⟩
  generalize (mergeMasks n bt _).batchEquity / _ = e
  have : eps + (0 + e * e) - (0 + e) * (0 + e) / (0 + 1) = eps := by ring
  rw [this]
  norm_num

/-- A run in which no thread fails to deal at the start. -/
inductive DealtSteps (sqrt : ℚ → ℚ) (target : ℚ) (s : Sim) (nThreads : Nat) (w : McWorld) : McWorld → Prop
  | refl : DealtSteps sqrt target s nThreads w w
  | step {u v : McWorld} : DealtSteps sqrt target s nThreads w u → McStep sqrt target s nThreads u v →
      (∀ t < nThreads, (u.locals t).pc = .start → (v.locals t).pc ≠ .final) → DealtSteps sqrt target s nThreads w v

theorem DealtSteps.steps {w v : McWorld} (h : DealtSteps sqrt target s nT w v) : McSteps sqrt target s nT w v := by
  induction h with
  | refl => exact .refl
  | step _ h _ ih => exact .step ih h

/-- The state of a run in which the first flush stops all threads; `A` are the threads that have flushed. -/
structure OneBatch (sqrt : ℚ → ℚ) (target : ℚ) (nT : Nat) (w : McWorld) (A : Finset Nat) : Prop where
  sub : ∀ t ∈ A, t < nT
  count : w.shared.results.evalCount = 4096 * A.card
  empty : A = ∅ → NoBatch w.shared.results ∧ w.shared.sent = []
  stop : A ≠ ∅ → w.shared.stopped = true ∧ w.shared.sent.head? = some (progressApprox (sqrt eps) target)
  after : ∀ t < nT, t ∈ A → (w.locals t).pc = .check ∨ (w.locals t).pc = .final ∨ (w.locals t).pc = .done
  before : ∀ t < nT, t ∉ A → (w.locals t).pc = .start ∨ (w.locals t).pc = .eval ∨ (w.locals t).pc = .flush ∨ (w.locals t).pc = .move

theorem OneBatch.quiet {w : McWorld} {A : Finset Nat} (h : OneBatch sqrt target nT w A) {t : Nat} {l : McLocal}
    (ha : t ∈ A → l.pc = .check ∨ l.pc = .final ∨ l.pc = .done)
    (hb : t ∉ A → l.pc = .start ∨ l.pc = .eval ∨ l.pc = .flush ∨ l.pc = .move) :
    OneBatch sqrt target nT { locals := Function.update w.locals t l, shared := w.shared } A where
  sub := h.sub
  count := h.count
  empty := h.empty
  stop := h.stop
  after := fun u hu hA => by
    by_cases e : u = t
    · subst e; simp only [Function.update_self]; exact ha hA
    · simp only [Function.update_of_ne e]; exact h.after u hu hA
  before := fun u hu hA => by
    by_cases e : u = t
    · subst e; simp only [Function.update_self]; exact hb hA
    · simp only [Function.update_of_ne e]; exact h.before u hu hA

theorem oneBatch (hr : McReady ranges b d s) (hsq : sqrt eps < target) (h0 : r0.evalCount = 0) (hn : NoBatch r0) {cancelled : Bool}
    {w : McWorld} (hs : DealtSteps sqrt target s nT (McWorld.init s r0 cancelled) w) : ∃ A, OneBatch sqrt target nT w A := by
  have hce := hr.fields.2.2.2.2.1
  induction hs with
  | refl =>
    refine ⟨∅, by simp, (by rw [Finset.card_empty]; exact h0), fun _ => ⟨hn, rfl⟩, fun h => absurd rfl h, by simp, fun t _ _ => Or.inl rfl⟩
  | @step u v hsteps hstep hd ih =>
    obtain ⟨A, hA⟩ := ih
    obtain ⟨hist, Dr, Dl, hi⟩ := McInv.steps hr hsteps.steps
    obtain ⟨_, _, _, hi'⟩ := McInv.steps hr (.step hsteps.steps hstep)
    cases hstep with
    | cancel =>
      exact ⟨A, hA.sub, hA.count, hA.empty, fun h => ⟨rfl, (hA.stop h).2⟩, hA.after, hA.before⟩
    | thread t ht hpc ds l g h =>
      have he := mcStep_effect h
      have hfine := hi'.fine t ht
      have hdt := hd t ht
      have hc := hi.evalCount ht
      simp only [Function.update_self] at hfine hdt
      have hbef := hA.before t ht
      have haft := hA.after t ht
      unfold StepEffect at he
      generalize hw : u.locals t = l0 at he hpc hc hdt hbef haft
      cases hp : l0.pc with
      | start =>
        rw [hp] at he haft
        obtain ⟨rfl, _, _, he⟩ := he
        refine ⟨A, hA.quiet (fun hm => ?_) (fun _ => ?_)⟩
        · rcases haft hm with h | h | h <;> cases h
        · rcases he with he | he | he
          · exact Or.inr (Or.inl he)
          · exact absurd he (hdt hp)
          · exact absurd he hfine
      | eval =>
        rw [hp] at he haft
        obtain ⟨rfl, he, _⟩ := he
        refine ⟨A, hA.quiet (fun hm => ?_) (fun _ => ?_)⟩
        · rcases haft hm with h | h | h <;> cases h
        · rcases he with he | he | he
          · exact Or.inr (Or.inr (Or.inl he))
          · exact Or.inr (Or.inr (Or.inr he))
          · exact absurd he hfine
      | flush =>
        rw [hp] at he haft hc
        obtain ⟨rfl, he⟩ := he
        have hnot : t ∉ A := fun hm => by rcases haft hm with h | h | h <;> cases h
        change l0.stats.evalCount = 4096 at hc
        refine ⟨insert t A, fun x hx => ?_, ?_, fun e => absurd e (Finset.insert_ne_empty _ _), fun _ => ?_, fun x hx hm => ?_,
          fun x hx hm => ?_⟩
        · rcases Finset.mem_insert.1 hx with rfl | hx
          · exact ht
          · exact hA.sub x hx
        · show (McShared.update sqrt target s false l0 u.shared).results.evalCount = _
          rw [update_evalCount, hA.count, hc, Finset.card_insert_of_notMem hnot]; omega
        · show (McShared.update sqrt target s false l0 u.shared).stopped = _ ∧ (McShared.update sqrt target s false l0 u.shared).sent.head? = _
          by_cases e : A = ∅
          · obtain ⟨e1, e2⟩ := hA.empty e
            have hst := (first_stdev (sqrt := sqrt) e1 s.nPlayers l0.stats l0.hands).1
            unfold McShared.update
            simp only
            rw [hce, hst, if_pos ⟨trivial, hsq⟩, e2]
            exact ⟨rfl, rfl⟩
          · obtain ⟨e1, e2⟩ := hA.stop e
            refine ⟨update_stopped e1, ?_⟩
            unfold McShared.update
            simp only
            rw [List.head?_append, e2]
            rfl
        · by_cases e : x = t
          · subst e; simp only [Function.update_self]; rw [he]; exact Or.inl rfl
          · simp only [Function.update_of_ne e]
            exact hA.after x hx ((Finset.mem_insert.1 hm).resolve_left e)
        · have e : x ≠ t := fun e => hm (by rw [e]; exact Finset.mem_insert_self _ _)
          simp only [Function.update_of_ne e]
          exact hA.before x hx (fun h => hm (Finset.mem_insert_of_mem h))
      | check =>
        rw [hp] at he hbef
        obtain ⟨rfl, he⟩ := he
        have hmem : t ∈ A := by
          by_contra hm
          rcases hbef hm with h | h | h | h <;> cases h
        have hst := (hA.stop (Finset.ne_empty_of_mem hmem)).1
        refine ⟨A, hA.quiet (fun _ => ?_) (fun hm => absurd hmem hm)⟩
        rw [he, hst]
        exact Or.inr (Or.inl rfl)
      | restart =>
        rw [hp] at hbef haft
        by_cases hm : t ∈ A
        · rcases haft hm with h | h | h <;> cases h
        · rcases hbef hm with h | h | h | h <;> cases h
      | move =>
        rw [hp] at he haft
        obtain ⟨rfl, _, _, he⟩ := he
        refine ⟨A, hA.quiet (fun hm => ?_) (fun _ => ?_)⟩
        · rcases haft hm with h | h | h <;> cases h
        · rcases he with he | he
          · exact Or.inr (Or.inl he)
          · exact absurd he hfine
      | final =>
        rw [hp] at he hbef hc
        obtain ⟨rfl, he⟩ := he
        have hmem : t ∈ A := by
          by_contra hm
          rcases hbef hm with h | h | h | h <;> cases h
        obtain ⟨e1, e2⟩ := hA.stop (Finset.ne_empty_of_mem hmem)
        change l0.stats.evalCount = 0 at hc
        refine ⟨A, hA.sub, ?_, fun e => absurd e (Finset.ne_empty_of_mem hmem), fun _ => ⟨update_stopped e1, ?_⟩, fun x hx hm => ?_,
          fun x hx hm => ?_⟩
        · show (McShared.update sqrt target s true l0 u.shared).results.evalCount = _
          rw [update_evalCount, hA.count, hc]; omega
        · show (McShared.update sqrt target s true l0 u.shared).sent.head? = _
          unfold McShared.update
          simp only
          rw [List.head?_append, e2]
          rfl
        · by_cases e : x = t
          · subst e; simp only [Function.update_self]; rw [he]; exact Or.inr (Or.inr rfl)
          · simp only [Function.update_of_ne e]
            exact hA.after x hx hm
        · have e : x ≠ t := fun e => hm (by rw [e]; exact hmem)
          simp only [Function.update_of_ne e]
          exact hA.before x hx hm
      | done => exact absurd hp hpc.1
      | panicked => exact absurd hp hpc.2

theorem oneBatch_done {w : McWorld} {A : Finset Nat} (h : OneBatch sqrt target nT w A) (hd : ∀ t < nT, (w.locals t).pc = .done) :
    w.shared.results.evalCount = 4096 * nT := by
  have : A = Finset.range nT := by
    ext t
    rw [Finset.mem_range]
    refine ⟨h.sub t, fun ht => ?_⟩
    by_contra hm
    have := h.before t ht hm
    rw [hd t ht] at this
    rcases this with h | h | h | h <;> cases h
  rw [h.count, this, Finset.card_range]

/-! ## With one combined range the first deal never fails -/

theorem McReady.free_combo (h : McReady ranges b d s) {cr : CombinedRange} (hcr : cr ∈ s.combinedRanges) {c : JointCombo}
    (hc : c ∈ cr.combos) : (b ||| d) &&& c.mask = 0 := by
  obtain ⟨s0, h1, h2, h3⟩ := h.exact
  have ha := prepareExact_ok h1
  have he : s0.combinedRanges = fromRanges (ranges.map fun h => removeConflictingCombos h b d) := by rw [ha.sim]; rfl
  obtain ⟨cr0, hm, hs⟩ := forall₂_mem h2 cr hcr
  rw [he] at hm
  have hco := fromRanges_ok _ (wf_filter h.wf b d) cr0 hm c (hs.2.2.2.mem_iff.1 hc)
  rw [Nat.and_comm, and_eq_zero_iff]
  intro i hi
  rw [hco.mask, maskOr_testBit, Nat.zero_testBit, Bool.false_or, decide_eq_true_iff] at hi
  unfold dealt holesOf at hi
  rw [List.mem_flatMap] at hi
  obtain ⟨x, hx, hi⟩ := hi
  obtain ⟨j, hj, rfl⟩ := List.mem_map.1 hx
  obtain ⟨k, hk, e1, _⟩ := hco.mem j (List.mem_range.1 hj)
  rw [e1] at hi
  have hk' : ∃ r, k ∈ removeConflictingCombos r b d := by
    rw [List.getD_eq_getElem?_getD, List.getElem?_map] at hk
    cases hg : ranges[cr0.players j]? with
    | none => rw [hg] at hk; cases hk
    | some r => rw [hg] at hk; exact ⟨r, hk⟩
  obtain ⟨r, hk'⟩ := hk'
  rw [C23_filter, List.mem_filter] at hk'
  have hb := hk'.2
  rw [Bool.not_eq_true', Bool.or_eq_false_iff, Bool.or_eq_false_iff, Bool.or_eq_false_iff] at hb
  rw [Nat.testBit_or]
  unfold cardsOf toHole at hi
  simp only [List.mem_cons, List.not_mem_nil, or_false] at hi
  rcases hi with rfl | rfl
  · rw [hb.1.1.1, hb.1.2]; rfl
  · rw [hb.1.1.2, hb.2]; rfl

theorem single_attempt (h : McReady ranges b d s) (h1 : s.combinedRanges.length = 1) (k : Nat) {w w' : Walk} {ds rest : Draws} {a : Bool}
    (ha : attempts s (k + 1) w ds = .ok (a, w') rest) : a = true := by
  obtain ⟨cr, hcr⟩ := List.length_eq_one_iff.1 h1
  have e : attempts s (k + 1) w ds = match dealLoop s.combinedRanges 0 { w with used := s.boardMask ||| s.deadMask } ds with
      | .ok (true, w) ds => .ok (true, w) ds
      | .ok (false, w) ds => attempts s k w ds
      | .more => .more
      | .panic => .panic := rfl
  rw [e] at ha
  cases hdl : dealLoop s.combinedRanges 0 { w with used := s.boardMask ||| s.deadMask } ds with
  | more => rw [hdl] at ha; cases ha
  | panic => rw [hdl] at ha; cases ha
  | ok x rest' =>
    obtain ⟨a', w''⟩ := x
    have ht := (dealLoop_try s.combinedRanges 0 { w with used := s.boardMask ||| s.deadMask } ds).2 a' w'' rest' hdl
    have htrue : a' = true := by
      rw [hcr] at ht
      cases ds with
      | nil => cases ht
      | cons y ys =>
        rw [tryDeal_cons] at ht
        split at ht
        · cases hc : cr.combos[y]? with
          | none => rw [hc] at ht; cases ht
          | some c =>
            rw [hc] at ht
            have hf := h.free_combo (by rw [hcr]; simp) (List.mem_of_getElem? hc)
            rw [← h.fields.2.1, ← h.fields.2.2.1] at hf
            simp only [hf, ne_eq, not_true_eq_false, if_false] at ht
            injection ht with ht _
            exact ht.symm
        · cases ht
    subst htrue
    rw [hdl] at ha
    injection ha with ha _
    injection ha with ha _
    exact ha.symm

theorem single_start (h : McReady ranges b d s) (h1 : s.combinedRanges.length = 1) {l l' : McLocal} {g g' : McShared} {ds rest : Draws}
    (hpc : l.pc = .start ∨ l.pc = .restart) (hst : mcStep sqrt target s l g ds = .ok (l', g') rest) : l'.pc ≠ .final := by
  unfold mcStep at hst
  rcases hpc with hpc | hpc
  all_goals
    rw [hpc] at hst
    simp only at hst
    cases hr : randomizeHoleCards s l.walk ds with
    | ok a rest' =>
      rw [hr] at hst
      obtain ⟨ok, w⟩ := a
      have hok := single_attempt h h1 999 hr
      subst hok
      injection hst with hst _
      injection hst with h1 _
      rw [← h1]
      simp
    | more => rw [hr] at hst; cases hst
    | panic =>
      rw [hr] at hst
      injection hst with hst _
      injection hst with h1 _
      rw [← h1]
      simp

theorem single_dealt (h : McReady ranges b d s) (h1 : s.combinedRanges.length = 1) {w v : McWorld}
    (hs : McSteps sqrt target s nT w v) : DealtSteps sqrt target s nT w v := by
  induction hs with
  | refl => exact .refl
  | @step u v _ hstep ih =>
    refine .step ih hstep (fun t _ hp => ?_)
    cases hstep with
    | cancel => rw [show (McWorld.locals _ t).pc = .start from hp]; decide
    | thread t' _ _ ds l g hm =>
      by_cases e : t = t'
      · subst e
        simp only [Function.update_self]
        exact single_start h h1 (Or.inl hp) hm
      · simp only [Function.update_of_ne e]
        rw [hp]; decide

end

end Pokers
