import Verif.Proofs.FloatStat
import Verif.Proofs.FloatMc
/-!
# When the random simulation with floating-point numbers stops
-/
namespace Pokers
open Spec CombinedRange Finset

section
variable {dev : ℚ → ℚ → Option ℚ} {prog : Option ℚ → Nat} {target : ℚ} {ranges : List (List Combo)} {b d : Nat} {s : Sim} {r0 : Results} {nT : Nat}

/-- What a step of a thread does to the shared state, by the place where the thread is. -/
def StepEffectF (dev : ℚ → ℚ → Option ℚ) (prog : Option ℚ → Nat) (target : ℚ) (s : Sim) (l l' : McLocal) (g g' : McShared) : Prop :=
  match l.pc with
  | .flush => g' = g.updateF dev prog target s false l ∧ l' = { l with pc := .check, stats := Batch.init s.nPlayers, hands := HandStats.init }
  | .final => g' = g.updateF dev prog target s true l ∧ l' = { l with pc := .done }
  | .check => g' = g ∧ l' = { l with pc := if g.stopped then .final else .restart }
  | _ => g' = g

theorem mcStepF_effect {l l' : McLocal} {g g' : McShared} {ds rest : Draws} (h : mcStepF dev prog target s l g ds = .ok (l', g') rest) :
    StepEffectF dev prog target s l l' g g' := by
  unfold mcStepF at h
  unfold StepEffectF
  cases hpc : l.pc with
  | eval =>
    rw [hpc] at h
    simp only at h ⊢
    cases hr : evalDealF s l ds with
    | ok a rest' =>
      rw [hr] at h
      obtain ⟨h1, _⟩ := Out.ok.inj h
      exact (Prod.mk.inj h1).2.symm
    | more => rw [hr] at h; cases h
    | panic =>
      rw [hr] at h
      obtain ⟨h1, _⟩ := Out.ok.inj h
      exact (Prod.mk.inj h1).2.symm
  | flush =>
    rw [hpc] at h
    obtain ⟨h1, _⟩ := Out.ok.inj h
    obtain ⟨h2, h3⟩ := Prod.mk.inj h1
    subst h2 h3
    exact ⟨rfl, rfl⟩
  | final =>
    rw [hpc] at h
    obtain ⟨h1, _⟩ := Out.ok.inj h
    obtain ⟨h2, h3⟩ := Prod.mk.inj h1
    subst h2 h3
    exact ⟨rfl, rfl⟩
  | start =>
    rw [hpc] at h
    have := mcStep_effect h
    unfold StepEffect at this
    rw [hpc] at this
    exact this.1
  | check =>
    rw [hpc] at h
    have := mcStep_effect h
    unfold StepEffect at this
    rw [hpc] at this
    exact this
  | restart =>
    rw [hpc] at h
    have := mcStep_effect h
    unfold StepEffect at this
    rw [hpc] at this
    exact this.1
  | move =>
    rw [hpc] at h
    have := mcStep_effect h
    unfold StepEffect at this
    rw [hpc] at this
    exact this.1
  | done =>
    rw [hpc] at h
    have := mcStep_effect h
    unfold StepEffect at this
    rw [hpc] at this
    exact this.1
  | panicked =>
    rw [hpc] at h
    have := mcStep_effect h
    unfold StepEffect at this
    rw [hpc] at this
    exact this.1

/-- What holds in every reachable state of the floating-point model, by comparison with the exact model. -/
structure FWorld (s : Sim) (nT : Nat) (w : McWorld) : Prop where
  len : ∀ t < nT, LenAt (w.locals t).pc (w.locals t).stats.evalCount
  ids : ∀ t < nT, IdPlayers s.nPlayers (w.locals t).stats
  sent : 4096 * w.shared.sent.length = w.shared.results.evalCount + 4096 * doneCount w nT
  fine : ∀ t < nT, (w.locals t).pc ≠ .panicked
  empty : ∀ t < nT, (w.locals t).pc = .final → (w.locals t).stats = Batch.init s.nPlayers

theorem doneCount_close {n : Nat} {w w' : McWorld} (h : McWorldClose n w w') (nT : Nat) : doneCount w' nT = doneCount w nT := by
  unfold doneCount
  apply List.countP_congr
  intro t _
  rw [(h.locals t).pc]

theorem fworld (hr : McReady ranges b d s) {flag : Nat} (hst : startResults s = some (r0, flag)) {cancelled : Bool} {w : McWorld}
    (hs : McStepsF dev prog target s nT (McWorld.init s r0 cancelled) w) : FWorld s nT w := by
  obtain ⟨e1, _, _, _, hce, e2, _⟩ := hr.fields
  obtain ⟨v, h1, h2⟩ := McStepsF.follow (by omega) hce (init_mcWorldClose hst cancelled) hs
  obtain ⟨hist, Dr, Dl, hi⟩ := McInv.steps hr h1
  have he0 : r0.evalCount = 0 := congrArg Prod.snd (startResults_counts hst).2.2.1
  refine ⟨fun t ht => ?_, fun t ht => ?_, ?_, fun t ht => ?_, fun t ht hp => ?_⟩
  · have := hi.evalCount ht
    have hst : (w.locals t).stats = (v.locals t).stats := (h2.locals t).stats.1
    rwa [← (h2.locals t).pc, ← hst] at this
  · have := hi.ids t ht
    have hst : (w.locals t).stats = (v.locals t).stats := (h2.locals t).stats.1
    rwa [← hst] at this
  · have := sent_count hr he0 h1
    rwa [← h2.shared.sent, ← h2.shared.results.evals, ← doneCount_close h2 nT] at this
  · rw [(h2.locals t).pc]
    exact hi.fine t ht
  · have hst : (w.locals t).stats = (v.locals t).stats := (h2.locals t).stats.1
    rw [(h2.locals t).pc] at hp
    have hlen := hi.len t ht
    rw [hp] at hlen
    have := hi.fresh t ht (List.length_eq_zero_iff.1 hlen)
    rw [hst]
    exact congrArg Prod.fst this

theorem updateF_evalCount (f : Bool) (l : McLocal) (g : McShared) :
    (g.updateF dev prog target s f l).results.evalCount = g.results.evalCount + l.stats.evalCount := by
  unfold McShared.updateF updateResultsF
  simp only
  split <;> rfl

theorem updateF_sent (f : Bool) (l : McLocal) (g : McShared) : (g.updateF dev prog target s f l).sent.length = g.sent.length + 1 := by
  unfold McShared.updateF
  simp

theorem doneCount_le (w : McWorld) (nT : Nat) : doneCount w nT ≤ nT := by
  unfold doneCount
  have := List.countP_le_length (p := fun t => decide ((w.locals t).pc = .done)) (l := List.range nT)
  rwa [List.length_range] at this

/-- The statistics of a run, and the bound on the evaluations. -/
structure BoundF (T : ℚ) (N nT : Nat) (w : McWorld) (xs : List ℚ) : Prop where
  stat : FStat w.shared.results xs
  len : xs.length = w.shared.sent.length
  run : w.shared.stopped = false → w.shared.results.evalCount ≤ 4096 * N ∧
    ∀ e : Nat, 0 < e → w.shared.results.evalCount = 4096 * e → T ^ 2 * (e : ℚ) ^ 2 / 2 ≤ varOf xs
  all : w.shared.results.evalCount ≤ 4096 * (N + 1 + leavingCount w nT)

theorem target_sq {T : ℚ} (hT : 1 / 2 ^ 20 ≤ T) : 1 / 2 ^ 40 ≤ T ^ 2 := by
  calc (1 / 2 ^ 40 : ℚ) = (1 / 2 ^ 20) ^ 2 := by norm_num
    _ ≤ T ^ 2 := by gcongr

theorem target_floor {T : ℚ} (hT : 1 / 2 ^ 20 ≤ T) : ⌊1 / (3 * T ^ 2)⌋₊ ≤ 2 ^ 39 := by
  have h1 := target_sq hT
  have h2 : 1 / (3 * T ^ 2) ≤ 2 ^ 39 := by
    rw [div_le_iff₀ (by nlinarith)]
    norm_num at h1 ⊢
    linarith
  have := Nat.floor_le_floor h2
  have e : ⌊(2 ^ 39 : ℚ)⌋₊ = 2 ^ 39 := by
    have := Nat.floor_natCast (R := ℚ) (2 ^ 39)
    rwa [Nat.cast_pow, Nat.cast_ofNat] at this
  rwa [e] at this

/-- The variance of a non-final update is positive as computed. -/
theorem radicand_pos {T : ℚ} (hT : 1 / 2 ^ 20 ≤ T) {r : Results} {xs ys : List ℚ} {x : ℚ} (hx : xs = ys ++ [x]) (h : FStat r xs) {e m : Nat}
    (hm : m ≤ 255) (hk : xs.length = e + 1 + m) (hv : 0 < e → T ^ 2 * (e : ℚ) ^ 2 / 2 ≤ varOf ys) :
    1 / 2 ^ 200 ≤ varianceF r.batchSum r.batchSum2 r.batchCount := by
  by_cases he : e + 1 ≤ 745
  · exact le_trans (by norm_num) (h.pos (by omega) (by omega))
  · have h1 := hv (by omega)
    have h2 := (abs_le.1 (h.variance (by omega))).1
    have h3 := varOf_mono ys x
    rw [← hx] at h3
    have h4 : ((xs.length : ℚ) + 2) ≤ 2 * e := by
      have : xs.length + 2 ≤ 2 * e := by omega
      exact_mod_cast this
    have h5 : ((xs.length : ℚ) + 2) ^ 2 / 2 ^ 50 ≤ (2 * e) ^ 2 / 2 ^ 50 := by gcongr
    have h6 : 1 / 2 ^ 40 * (e : ℚ) ^ 2 ≤ T ^ 2 * (e : ℚ) ^ 2 := mul_le_mul_of_nonneg_right (target_sq hT) (by positivity)
    have h7 : (1 : ℚ) ≤ (e : ℚ) ^ 2 := by
      have : (1 : ℚ) ≤ e := by exact_mod_cast (by omega : 1 ≤ e)
      exact one_le_pow₀ this
    have h9 : (2 * (e : ℚ)) ^ 2 / 2 ^ 50 = 1 / 2 ^ 48 * (e : ℚ) ^ 2 := by ring
    rw [h9] at h5
    generalize (e : ℚ) ^ 2 = q at *
    have h8 : (1 : ℚ) / 2 ^ 200 ≤ 1 / 2 ^ 42 * q := by
      have h9 : (1 : ℚ) / 2 ^ 200 ≤ 1 / 2 ^ 42 := by norm_num
      generalize (1 : ℚ) / 2 ^ 200 = a at h9 ⊢
      norm_num at h9 ⊢
      linarith
    generalize (1 : ℚ) / 2 ^ 200 = a at h8 ⊢
    norm_num at h5 h6 h8 h2 ⊢
    linarith

/-- The bound on the evaluations of the floating-point model, in every reachable state. -/
theorem eval_boundF (hr : McReady ranges b d s) {flag : Nat} (hst : startResults s = some (r0, flag)) {T : ℚ} (hT : 1 / 2 ^ 20 ≤ T)
    (hnT : nT ≤ 255) {N : Nat} (hN : N = ⌊1 / (3 * T ^ 2)⌋₊) {cancelled : Bool} {w : McWorld}
    (hs : McStepsF devF prog T s nT (McWorld.init s r0 cancelled) w) : ∃ xs, BoundF T N nT w xs := by
  have hce := hr.fields.2.2.2.2.1
  have hn : 0 < s.nPlayers ∧ s.nPlayers ≤ 9 := by have := hr.fields; omega
  have he0 : r0.evalCount = 0 := congrArg Prod.snd (startResults_counts hst).2.2.1
  have hNb : N ≤ 2 ^ 39 := hN ▸ target_floor hT
  induction hs with
  | refl =>
    have e0 : (McWorld.init s r0 cancelled).shared.results.evalCount = 0 := he0
    exact ⟨[], FStat.nil (start_noBatch hst), rfl, fun _ => ⟨by omega, fun e h1 h2 => by omega⟩, by omega⟩
  | @step u v hsteps hstep ih =>
    obtain ⟨xs, ih⟩ := ih
    have hw := fworld hr hst hsteps
    cases hstep with
    | cancel => exact ⟨xs, ih.stat, ih.len, (fun h => by cases h), ih.all⟩
    | thread t ht' hpc ds l g h =>
      have he := mcStepF_effect h
      have hd := leavingCount_update u nT t ht' l g
      have hc := hw.len t ht'
      have hids := hw.ids t ht'
      have hsent := hw.sent
      have hdone := doneCount_le u nT
      have hlv := leavingCount_le u nT
      have hall := ih.all
      have hlen := ih.len
      unfold StepEffectF at he
      generalize hl0 : u.locals t = l0 at he hpc hc hd hids
      have quiet : g = u.shared → Leaving l0 = false →
          ∃ xs, BoundF T N nT { locals := Function.update u.locals t l, shared := g } xs := by
        intro hg hl
        subst hg
        rw [hl] at hd
        refine ⟨xs, ih.stat, ih.len, ih.run, ?_⟩
        show u.shared.results.evalCount ≤ _
        simp only [Bool.false_eq_true, if_false] at hd
        split at hd <;> omega
      cases hp : l0.pc with
      | start => rw [hp] at he; exact quiet he (by unfold Leaving; rw [hp]; decide)
      | eval => rw [hp] at he; exact quiet he (by unfold Leaving; rw [hp]; decide)
      | restart => rw [hp] at he; exact quiet he (by unfold Leaving; rw [hp]; decide)
      | move => rw [hp] at he; exact quiet he (by unfold Leaving; rw [hp]; decide)
      | check =>
        rw [hp] at he
        obtain ⟨rfl, he⟩ := he
        refine ⟨xs, ih.stat, ih.len, ih.run, ?_⟩
        show u.shared.results.evalCount ≤ _
        cases hstop : u.shared.stopped with
        | false => have := (ih.run hstop).1; omega
        | true =>
          have hl : Leaving l = true := by rw [he, hstop]; rfl
          have hl0 : Leaving l0 = true := by unfold Leaving; rw [hp]; decide
          rw [hl, hl0] at hd
          simp only [if_true] at hd
          omega
      | flush =>
        rw [hp] at he hc
        obtain ⟨rfl, he⟩ := he
        change l0.stats.evalCount = 4096 at hc
        have hl : Leaving l = true := by rw [he]; rfl
        have hl0 : Leaving l0 = false := by unfold Leaving; rw [hp]; decide
        rw [hl, hl0] at hd
        simp only [if_true, Bool.false_eq_true, if_false] at hd
        have hev := updateF_evalCount (dev := devF) (prog := prog) (target := T) (s := s) false l0 u.shared
        have hse := updateF_sent (dev := devF) (prog := prog) (target := T) (s := s) false l0 u.shared
        have hstat : FStat (u.shared.updateF devF prog T s false l0).results (xs ++ [estimateF s.nPlayers l0.stats u.shared.results]) := by
          have := ih.stat.update (by omega) devF hn.1 hn.2 hids l0.hands
          unfold McShared.updateF
          rwa [hce]
        refine ⟨_, hstat, ?_, fun hns => ?_, ?_⟩
        · show _ = (u.shared.updateF devF prog T s false l0).sent.length
          rw [hse, ← hlen]
          simp
        · change (u.shared.updateF devF prog T s false l0).stopped = false at hns
          show (u.shared.updateF devF prog T s false l0).results.evalCount ≤ _ ∧
            ∀ e : Nat, 0 < e → (u.shared.updateF devF prog T s false l0).results.evalCount = _ → _
          have hns' : u.shared.stopped = false ∧ ∀ dd, devF (varianceF (u.shared.updateF devF prog T s false l0).results.batchSum
              (u.shared.updateF devF prog T s false l0).results.batchSum2 (u.shared.updateF devF prog T s false l0).results.batchCount)
              (u.shared.updateF devF prog T s false l0).results.batchCount = some dd → ¬ dd < T := by
            unfold McShared.updateF at hns ⊢
            simp only at hns ⊢
            split at hns
            · cases hns
            · rename_i hcond
              refine ⟨hns, fun dd hdd hlt => hcond ⟨trivial, ?_⟩⟩
              rw [hdd]
              simpa using hlt
          obtain ⟨hst0, hnd⟩ := hns'
          obtain ⟨hr1, hr2⟩ := ih.run hst0
          rw [hev, hc]
          obtain ⟨e, he4⟩ : ∃ e, u.shared.results.evalCount = 4096 * e := ⟨u.shared.sent.length - doneCount u nT, by omega⟩
          have hpos := radicand_pos hT rfl hstat (e := e) (m := doneCount u nT) (by omega)
            (by rw [List.length_append, hlen]; simp only [List.length_cons, List.length_nil]; omega) (fun h0 => hr2 e h0 he4)
          have hk : (xs ++ [estimateF s.nPlayers l0.stats u.shared.results]).length = e + 1 + doneCount u nT := by
            rw [List.length_append, hlen]; simp only [List.length_cons, List.length_nil]; omega
          obtain ⟨dd, hdd, hd1, hd2⟩ := hstat.large (by omega) (by omega) hpos hT
          have hnot := hnd dd hdd
          have hbig := hd1 hnot
          have hsmall := mt hd2 hnot
          push Not at hsmall
          have hle : e + 1 + doneCount u nT ≤ N := by
            rw [hN]
            apply Nat.le_floor
            rwa [hk] at hsmall
          refine ⟨by omega, fun e' _ he' => ?_⟩
          have : e' = e + 1 := by omega
          subst this
          refine le_trans ?_ hbig
          rw [hk]
          have : ((e + 1 : Nat) : ℚ) ≤ ((e + 1 + doneCount u nT : Nat) : ℚ) := by exact_mod_cast Nat.le_add_right _ _
          have hT0 : (0 : ℚ) ≤ T ^ 2 := by positivity
          gcongr
        · show (u.shared.updateF devF prog T s false l0).results.evalCount ≤ _
          rw [hev, hc]
          omega
      | final =>
        rw [hp] at he hc
        obtain ⟨rfl, he⟩ := he
        change l0.stats.evalCount = 0 at hc
        have hl : Leaving l = true := by rw [he]; rfl
        have hl0 : Leaving l0 = true := by unfold Leaving; rw [hp]; decide
        rw [hl, hl0] at hd
        simp only [if_true] at hd
        have hev := updateF_evalCount (dev := devF) (prog := prog) (target := T) (s := s) true l0 u.shared
        have hse := updateF_sent (dev := devF) (prog := prog) (target := T) (s := s) true l0 u.shared
        have hstat : FStat (u.shared.updateF devF prog T s true l0).results (xs ++ [estimateF s.nPlayers l0.stats u.shared.results]) := by
          have := ih.stat.update (by omega) devF hn.1 hn.2 hids l0.hands
          unfold McShared.updateF
          rwa [hce]
        refine ⟨_, hstat, ?_, fun hns => ?_, ?_⟩
        · show _ = (u.shared.updateF devF prog T s true l0).sent.length
          rw [hse, ← hlen]
          simp
        · change (u.shared.updateF devF prog T s true l0).stopped = false at hns
          show (u.shared.updateF devF prog T s true l0).results.evalCount ≤ _ ∧
            ∀ e : Nat, 0 < e → (u.shared.updateF devF prog T s true l0).results.evalCount = _ → _
          rw [hev, hc]
          have hst0 : u.shared.stopped = false := by
            unfold McShared.updateF at hns
            simpa using hns
          obtain ⟨hr1, hr2⟩ := ih.run hst0
          exact ⟨by omega, fun e h1 h2 => (hr2 e h1 (by omega)).trans (varOf_mono _ _)⟩
        · show (u.shared.updateF devF prog T s true l0).results.evalCount ≤ _
          rw [hev, hc]
          omega
      | done => exact absurd hp hpc.1
      | panicked => exact absurd hp hpc.2

/-! ## The number of steps -/

/-- `k` steps of threads, and any number of times setting the token. -/
inductive McCountF (dev : ℚ → ℚ → Option ℚ) (prog : Option ℚ → Nat) (target : ℚ) (s : Sim) (nThreads : Nat) (w : McWorld) : Nat → McWorld → Prop
  | refl : McCountF dev prog target s nThreads w 0 w
  | thread {k : Nat} {u : McWorld} (t : Nat) (ht : t < nThreads) (hpc : (u.locals t).pc ≠ .done ∧ (u.locals t).pc ≠ .panicked)
      (ds : Draws) (l : McLocal) (g : McShared) (h : mcStepF dev prog target s (u.locals t) u.shared ds = .ok (l, g) []) :
      McCountF dev prog target s nThreads w k u →
      McCountF dev prog target s nThreads w (k + 1) { locals := Function.update u.locals t l, shared := g }
  | cancel {k : Nat} {u : McWorld} : McCountF dev prog target s nThreads w k u →
      McCountF dev prog target s nThreads w k { u with shared := { u.shared with stopped := true } }

theorem McCountF.steps {w v : McWorld} {k : Nat} (h : McCountF dev prog target s nT w k v) : McStepsF dev prog target s nT w v := by
  induction h with
  | refl => exact .refl
  | thread t ht hpc ds l g h _ ih => exact .step ih (.thread _ t ht hpc ds l g h)
  | cancel _ ih => exact .step ih (.cancel _)

theorem McStepsF.count {w v : McWorld} (h : McStepsF dev prog target s nT w v) : ∃ k, McCountF dev prog target s nT w k v := by
  induction h with
  | refl => exact ⟨0, .refl⟩
  | step _ hs ih =>
    obtain ⟨k, ih⟩ := ih
    cases hs with
    | thread t ht hpc ds l g h => exact ⟨k + 1, .thread t ht hpc ds l g h ih⟩
    | cancel => exact ⟨k, .cancel ih⟩

theorem McCountF.follow (h9 : s.nPlayers ≤ 9) (hex : s.calcExact = false) {u u' v' : McWorld} {k : Nat} (hu : McWorldClose s.nPlayers u u')
    (h : McCountF dev prog target s nT u' k v') : ∃ v, McCount (fun _ => 0) 0 s nT u k v ∧ McWorldClose s.nPlayers v v' := by
  induction h with
  | refl => exact ⟨u, .refl, hu⟩
  | cancel _ ih =>
    obtain ⟨v, h1, h2⟩ := ih
    exact ⟨_, .cancel h1, ⟨h2.locals, rfl, h2.shared.results, h2.shared.fresh, h2.shared.sent⟩⟩
  | thread t ht hpc ds l' g' hs _ ih =>
    obtain ⟨v, h1, h2⟩ := ih
    obtain ⟨x, y, e1, e2, e3⟩ := mcStep_close h9 hex (h2.locals t) h2.shared hs
    rw [(h2.locals t).pc] at hpc
    have hstep := McCount.thread t ht hpc ds x y e1 h1
    have hloc := mcLocals_update h2.locals t e2
    rcases e3 with e3 | e3
    · exact ⟨_, hstep, hloc, e3⟩
    · exact ⟨_, hstep.cancel, hloc, e3⟩

/-- The number of steps of the floating-point model is bounded, for every schedule and all random values. -/
theorem step_boundF (hr : McReady ranges b d s) {flag : Nat} (hst : startResults s = some (r0, flag)) {T : ℚ} (hT : 1 / 2 ^ 20 ≤ T)
    (hnT : nT ≤ 255) {cancelled : Bool} {w : McWorld} {k : Nat}
    (hs : McCountF devF prog T s nT (McWorld.init s r0 cancelled) k w) :
    k ≤ 20480 * (⌊1 / (3 * T ^ 2)⌋₊ + 1 + nT) + 20484 * nT := by
  obtain ⟨e1, _, _, _, hce, e2, _⟩ := hr.fields
  obtain ⟨v, h1, h2⟩ := hs.follow (by omega) hce (init_mcWorldClose hst cancelled)
  have h3 := step_count hr h1
  obtain ⟨xs, hx⟩ := eval_boundF hr hst hT hnT rfl hs.steps
  have h4 := hx.all
  rw [h2.shared.results.evals] at h4
  have h5 := leavingCount_le w nT
  obtain ⟨hist, Dr, Dl, hi⟩ := McInv.steps hr h1.steps
  have h6 : ∑ t ∈ range nT, potential (v.locals t) ≤ ∑ t ∈ range nT, 20484 := by
    apply Finset.sum_le_sum
    intro t ht
    have hc := hi.evalCount (Finset.mem_range.1 ht)
    unfold potential
    cases hp : (v.locals t).pc <;> rw [hp] at hc <;> simp only [LenAt] at hc <;> simp only <;> omega
  rw [Finset.sum_const, Finset.card_range, smul_eq_mul] at h6
  omega

/-- Where the exact model can make a step, so can the floating-point model. -/
theorem mcStepF_exists (h9 : s.nPlayers ≤ 9) {sqrt : ℚ → ℚ} {tgt : ℚ} (dev : ℚ → ℚ → Option ℚ) (prog : Option ℚ → Nat) (target : ℚ)
    {l l' : McLocal} {g : McShared} (g' : McShared) (hl : McLocalClose s.nPlayers l l') {ds : Draws} {x : McLocal} {y : McShared}
    (h : mcStep sqrt tgt s l g ds = .ok (x, y) []) : ∃ x' y', mcStepF dev prog target s l' g' ds = .ok (x', y') [] := by
  unfold mcStepF
  rw [hl.pc]
  unfold mcStep at h ⊢
  rw [hl.pc, hl.walk]
  cases hpc : l.pc with
  | start =>
    rw [hpc] at h
    simp only at h ⊢
    cases hr : randomizeHoleCards s l.walk ds with
    | ok a rest =>
      obtain ⟨ok, w⟩ := a
      rw [hr] at h
      obtain ⟨_, h2⟩ := Out.ok.inj h
      subst h2
      exact ⟨_, _, rfl⟩
    | more => rw [hr] at h; cases h
    | panic => exact ⟨_, _, rfl⟩
  | eval =>
    rw [hpc] at h
    simp only at h ⊢
    cases hr : evalDeal s l ds with
    | ok a rest =>
      rw [hr] at h
      obtain ⟨_, h2⟩ := Out.ok.inj h
      subst h2
      obtain ⟨x', hx', _⟩ := evalDeal_forward h9 hl hr
      rw [hx']
      exact ⟨_, _, rfl⟩
    | more => rw [hr] at h; cases h
    | panic =>
      rw [evalDeal_panics hl hr]
      exact ⟨_, _, rfl⟩
  | flush => rw [hpc] at h; obtain ⟨_, h2⟩ := Out.ok.inj h; subst h2; exact ⟨_, _, rfl⟩
  | check => rw [hpc] at h; obtain ⟨_, h2⟩ := Out.ok.inj h; subst h2; exact ⟨_, _, rfl⟩
  | restart =>
    rw [hpc] at h
    simp only at h ⊢
    cases hr : randomizeHoleCards s l.walk ds with
    | ok a rest =>
      obtain ⟨ok, w⟩ := a
      rw [hr] at h
      obtain ⟨_, h2⟩ := Out.ok.inj h
      subst h2
      exact ⟨_, _, rfl⟩
    | more => rw [hr] at h; cases h
    | panic => exact ⟨_, _, rfl⟩
  | move =>
    rw [hpc] at h
    simp only at h ⊢
    cases hr : sample s.combinedRanges.length ds with
    | ok i rest =>
      rw [hr] at h
      simp only at h ⊢
      cases hi : s.combinedRanges[i]? with
      | none => rw [hi] at h; obtain ⟨_, h2⟩ := Out.ok.inj h; subst h2; exact ⟨_, _, rfl⟩
      | some cr =>
        rw [hi] at h
        simp only at h ⊢
        cases hd : redeal cr i l.walk with
        | none => rw [hd] at h; obtain ⟨_, h2⟩ := Out.ok.inj h; subst h2; exact ⟨_, _, rfl⟩
        | some w => rw [hd] at h; obtain ⟨_, h2⟩ := Out.ok.inj h; subst h2; exact ⟨_, _, rfl⟩
    | more => rw [hr] at h; cases h
    | panic => exact ⟨_, _, rfl⟩
  | final => rw [hpc] at h; obtain ⟨_, h2⟩ := Out.ok.inj h; subst h2; exact ⟨_, _, rfl⟩
  | done => rw [hpc] at h; obtain ⟨_, h2⟩ := Out.ok.inj h; subst h2; exact ⟨_, _, rfl⟩
  | panicked => rw [hpc] at h; obtain ⟨_, h2⟩ := Out.ok.inj h; subst h2; exact ⟨_, _, rfl⟩

/-- No thread is ever stuck. -/
theorem mc_progressF (hr : McReady ranges b d s) {flag : Nat} (hst : startResults s = some (r0, flag)) {cancelled : Bool} {w : McWorld}
    (hs : McStepsF dev prog target s nT (McWorld.init s r0 cancelled) w) {t : Nat} (ht : t < nT) :
    ∃ ds l g, mcStepF dev prog target s (w.locals t) w.shared ds = .ok (l, g) [] := by
  obtain ⟨e1, _, _, _, hce, e2, _⟩ := hr.fields
  obtain ⟨v, h1, h2⟩ := McStepsF.follow (by omega) hce (init_mcWorldClose hst cancelled) hs
  obtain ⟨hist, Dr, Dl, hi⟩ := McInv.steps hr h1
  obtain ⟨ds, l, g, hm⟩ := mc_progress (target := 0) hr hi ht
  obtain ⟨x', y', h⟩ := mcStepF_exists (by omega) dev prog target w.shared (h2.locals t) hm
  exact ⟨ds, x', y', h⟩

/-- From every reachable state the run can be completed. -/
theorem completesF (hr : McReady ranges b d s) {flag : Nat} (hst : startResults s = some (r0, flag)) {T : ℚ} (hT : 1 / 2 ^ 20 ≤ T)
    (hnT : nT ≤ 255) {cancelled : Bool} {w : McWorld} (hs : McStepsF devF prog T s nT (McWorld.init s r0 cancelled) w) :
    ∃ v, McStepsF devF prog T s nT w v ∧ ∀ t < nT, (v.locals t).pc = .done := by
  obtain ⟨k, hk⟩ := hs.count
  obtain ⟨j, hj⟩ : ∃ j, k + j = 20480 * (⌊1 / (3 * T ^ 2)⌋₊ + 1 + nT) + 20484 * nT + 1 :=
    ⟨_, Nat.add_sub_cancel' (by have := step_boundF hr hst hT hnT hk; omega)⟩
  induction j generalizing k w with
  | zero => have := step_boundF hr hst hT hnT hk; omega
  | succ j ih =>
    by_cases hd : ∀ t < nT, (w.locals t).pc = .done
    · exact ⟨w, .refl, hd⟩
    · push Not at hd
      obtain ⟨t, ht', hpc⟩ := hd
      have hw := fworld hr hst hs
      obtain ⟨ds, l, g, hm⟩ := mc_progressF hr hst hs ht'
      have hstep : McStepF devF prog T s nT w { locals := Function.update w.locals t l, shared := g } :=
        .thread w t ht' ⟨hpc, hw.fine t ht'⟩ ds l g hm
      obtain ⟨v, hv, hd⟩ := ih (.step hs hstep) (k + 1) (.thread t ht' ⟨hpc, hw.fine t ht'⟩ ds l g hm hk) (by omega)
      exact ⟨v, McStepsF.trans (.step .refl hstep) hv, hd⟩

/-! ## One batch is enough -/

/-- The deviation after the first batch. -/
theorem first_devF {T : ℚ} (hT : 1 / 31622 ≤ T) {r : Results} {x : ℚ} (h : FStat r [x]) :
    ∃ dd, devF (varianceF r.batchSum r.batchSum2 r.batchCount) r.batchCount = some dd ∧ dd < T := by
  have hpos := h.pos (by simp) (by simp)
  have hvar := h.variance (by simp)
  have hv : varOf [x] = eps := by simp [varOf, sumSq]
  rw [hv, h.count] at hvar
  rw [h.count] at hpos ⊢
  obtain ⟨dd, h1, h2, h3, h4⟩ := devF_rel (v := varianceF r.batchSum r.batchSum2 ([x].length : ℚ)) ((tiny_le (n := 35) (by omega)).trans hpos)
    (k := [x].length) (by simp) (by simp) (le_trans (by norm_num) hpos)
  refine ⟨dd, h1, ?_⟩
  by_contra hd
  push Not at hd
  have h5 : (1 / 31622 : ℚ) ≤ dd := hT.trans hd
  have h6 : (1 / 31622 : ℚ) ^ 2 ≤ dd ^ 2 := by gcongr
  have h7 := (abs_le.1 hvar).2
  simp only [List.length_cons, List.length_nil, Nat.cast_one, zero_add, mul_one] at h3 h7
  generalize varianceF r.batchSum r.batchSum2 _ = v at h3 h7
  unfold eps at h7
  norm_num at h3 h6 h7
  linarith

/-- A step of the exact model with deviation zero and target one. -/
theorem mcStep_one (hex : s.calcExact = false) {l x : McLocal} {g y : McShared} {ds : Draws} (h : mcStep (fun _ => 0) 0 s l g ds = .ok (x, y) []) :
    ∃ y1, mcStep (fun _ => 0) 1 s l g ds = .ok (x, y1) [] ∧ y1.results = y.results ∧ y1.sent.length = y.sent.length ∧
      y1.stopped = if l.pc = .flush then true else y.stopped := by
  have hup : ∀ fin, (g.update (fun _ => 0) 1 s fin l).stopped = if fin = false then true else g.stopped := by
    intro fin
    unfold McShared.update
    simp only
    have : (updateResults (fun _ => 0) s.nPlayers s.calcExact l.stats l.hands g.results).stdev < 1 := by
      unfold updateResults
      rw [hex]
      simp
    cases fin <;> simp [this]
  have hlen : ∀ fin, (g.update (fun _ => 0) 1 s fin l).sent.length = (g.update (fun _ => 0) 0 s fin l).sent.length := by
    intro fin; simp [McShared.update]
  unfold mcStep at h ⊢
  cases hpc : l.pc with
  | flush =>
    rw [hpc] at h
    obtain ⟨h1, h2⟩ := Out.ok.inj h
    obtain ⟨h3, h4⟩ := Prod.mk.inj h1
    subst h2 h3 h4
    exact ⟨_, rfl, rfl, hlen _, (hup false).trans rfl⟩
  | final =>
    rw [hpc] at h
    obtain ⟨h1, h2⟩ := Out.ok.inj h
    obtain ⟨h3, h4⟩ := Prod.mk.inj h1
    subst h2 h3 h4
    refine ⟨_, rfl, rfl, hlen _, (hup true).trans ?_⟩
    rw [update_zero_stopped s hex]
    rfl
  | start => rw [hpc] at h; exact ⟨y, h, rfl, rfl, rfl⟩
  | eval => rw [hpc] at h; exact ⟨y, h, rfl, rfl, rfl⟩
  | check => rw [hpc] at h; exact ⟨y, h, rfl, rfl, rfl⟩
  | restart => rw [hpc] at h; exact ⟨y, h, rfl, rfl, rfl⟩
  | move => rw [hpc] at h; exact ⟨y, h, rfl, rfl, rfl⟩
  | done => rw [hpc] at h; exact ⟨y, h, rfl, rfl, rfl⟩
  | panicked => rw [hpc] at h; exact ⟨y, h, rfl, rfl, rfl⟩

theorem updateF_stopped {f : Bool} {l : McLocal} {g : McShared} (h : g.stopped = true) : (g.updateF dev prog target s f l).stopped = true := by
  unfold McShared.updateF
  simp only
  split
  · rfl
  · exact h

/-- Nothing is in the statistics before the first progress value, which makes the threads stop. -/
structure FirstBatch (prog : Option ℚ → Nat) (g : McShared) : Prop where
  none : g.sent = [] → NoBatch g.results
  run : g.stopped = false → g.sent = []
  head : g.sent ≠ [] → ∃ r x, FStat r [x] ∧ g.sent.head? = some (prog (devF (varianceF r.batchSum r.batchSum2 r.batchCount) r.batchCount))

theorem FirstBatch.snoc {g : McShared} (h : FirstBatch prog g) (hne : g.sent ≠ []) {T : ℚ} (f : Bool) (l : McLocal) :
    FirstBatch prog (g.updateF devF prog T s f l) ∧ (g.updateF devF prog T s f l).stopped = true := by
  have hst : g.stopped = true := by
    by_contra hcon
    exact hne (h.run (by simpa using hcon))
  have hset := updateF_stopped (dev := devF) (prog := prog) (target := T) (s := s) (f := f) (l := l) hst
  refine ⟨⟨fun e => ?_, (fun e => by rw [hset] at e; cases e), fun _ => ?_⟩, hset⟩
  · unfold McShared.updateF at e
    simp at e
  · obtain ⟨r, x, h1, h2⟩ := h.head hne
    refine ⟨r, x, h1, ?_⟩
    unfold McShared.updateF
    simp only
    rw [List.head?_append, h2]
    rfl

/-- With a single combined range and a target that is not below `1 / 31622`: a step of a thread of the floating-point model is accompanied by a
step of the exact model with target one and a deviation of zero, which stops after the first batch. -/
theorem follow_one_step (hr : McReady ranges b d s) (h1 : s.combinedRanges.length = 1) {flag : Nat} (hst : startResults s = some (r0, flag)) {T : ℚ}
    (hT : 1 / 31622 ≤ T) {cancelled : Bool} {w v : McWorld} (hsteps : McStepsF devF prog T s nT (McWorld.init s r0 cancelled) w)
    (g1 : McSteps (fun _ => 0) 1 s nT (McWorld.init s r0 cancelled) v) (g2 : McWorldClose s.nPlayers v w) (g3 : FirstBatch prog w.shared)
    {t : Nat} (ht : t < nT) (hpc : (w.locals t).pc ≠ .done ∧ (w.locals t).pc ≠ .panicked) {ds : Draws} {l' : McLocal} {g' : McShared}
    (hs : mcStepF devF prog T s (w.locals t) w.shared ds = .ok (l', g') []) :
    ∃ x y, mcStep (fun _ => 0) 1 s (v.locals t) v.shared ds = .ok (x, y) [] ∧
      McWorldClose s.nPlayers { locals := Function.update v.locals t x, shared := y } { locals := Function.update w.locals t l', shared := g' } ∧
      FirstBatch prog g' := by
  obtain ⟨e1, _, _, _, hce, e2, _⟩ := hr.fields
  have he0 : r0.evalCount = 0 := congrArg Prod.snd (startResults_counts hst).2.2.1
  have hw := fworld hr hst hsteps
  obtain ⟨x, y, f1, f2, f3⟩ := mcStep_close (by omega) hce (g2.locals t) g2.shared hs
  obtain ⟨y1, k1, k2, k3, k4⟩ := mcStep_one hce f1
  have hpc' := hpc
  rw [(g2.locals t).pc] at hpc'
  have hloc := mcLocals_update g2.locals t f2
  have hres : ResClose s.nPlayers y.results g'.results ∧ Fresh s.nPlayers y.results ∧ g'.sent.length = y.sent.length := by
    rcases f3 with f3 | f3 <;> exact ⟨f3.results, f3.fresh, f3.sent⟩
  have heff := mcStepF_effect hs
  have heff' := mcStep_effect f1
  unfold StepEffectF at heff
  unfold StepEffect at heff'
  have hpcs := (g2.locals t).pc
  -- the token
  have hstop : g'.stopped = y1.stopped ∧ FirstBatch prog g' := by
    rw [k4]
    cases hp : (v.locals t).pc with
    | flush =>
      rw [hpcs, hp] at heff
      obtain ⟨rfl, _⟩ := heff
      by_cases hne : w.shared.sent = []
      · have hF := (FStat.nil (g3.none hne)).update (by norm_num) devF (n := s.nPlayers) (by omega) (by omega) (hw.ids t ht) (w.locals t).hands
        obtain ⟨dd, hd1, hd2⟩ := first_devF hT hF
        have hset : (w.shared.updateF devF prog T s false (w.locals t)).stopped = true := by
          unfold McShared.updateF
          simp only
          rw [hce, hd1]
          simp [hd2]
        refine ⟨by rw [hset]; rfl, fun e => ?_, (fun h => by rw [hset] at h; cases h), fun _ => ⟨_, _, hF, ?_⟩⟩
        · unfold McShared.updateF at e
          simp at e
        · unfold McShared.updateF
          simp only
          rw [hce, hne]
          rfl
      · obtain ⟨k5, k6⟩ := g3.snoc hne (s := s) (T := T) false (w.locals t)
        exact ⟨by rw [k6]; rfl, k5⟩
    | final =>
      rw [hpcs, hp] at heff
      obtain ⟨rfl, _⟩ := heff
      rw [hp] at heff'
      obtain ⟨rfl, _⟩ := heff'
      obtain ⟨A, hA⟩ := oneBatch hr (by norm_num) he0 (start_noBatch hst) (single_dealt hr h1 g1)
      have hmem : t ∈ A := by
        by_contra hm
        have := hA.before t ht hm
        rw [hp] at this
        rcases this with h | h | h | h <;> cases h
      obtain ⟨hs1, hs3⟩ := hA.stop (Finset.ne_empty_of_mem hmem)
      have hne : w.shared.sent ≠ [] := by
        intro e
        have := g2.shared.sent
        rw [e] at this
        rw [List.length_eq_zero_iff.1 this.symm] at hs3
        cases hs3
      obtain ⟨k5, k6⟩ := g3.snoc hne (s := s) (T := T) true (w.locals t)
      rw [update_zero_stopped s hce, hs1]
      exact ⟨by rw [k6]; rfl, k5⟩
    | start =>
      rw [hpcs, hp] at heff; rw [hp] at heff'
      rw [heff, heff'.1]
      exact ⟨g2.shared.stopped, g3⟩
    | eval =>
      rw [hpcs, hp] at heff; rw [hp] at heff'
      rw [heff, heff'.1]
      exact ⟨g2.shared.stopped, g3⟩
    | check =>
      rw [hpcs, hp] at heff; rw [hp] at heff'
      rw [heff.1, heff'.1]
      exact ⟨g2.shared.stopped, g3⟩
    | restart =>
      rw [hpcs, hp] at heff; rw [hp] at heff'
      rw [heff, heff'.1]
      exact ⟨g2.shared.stopped, g3⟩
    | move =>
      rw [hpcs, hp] at heff; rw [hp] at heff'
      rw [heff, heff'.1]
      exact ⟨g2.shared.stopped, g3⟩
    | done => exact absurd hp hpc'.1
    | panicked => exact absurd hp hpc'.2
  exact ⟨x, y1, k1, ⟨hloc, hstop.1, by rw [k2]; exact hres.1, by rw [k2]; exact hres.2.1, by rw [k3]; exact hres.2.2⟩, hstop.2⟩

/-- With a single combined range and a target that is not below `1 / 31622`, a run of the floating-point model is accompanied by a run of
the exact model with target one and a deviation of zero, which stops after the first batch. -/
theorem follow_one (hr : McReady ranges b d s) (h1 : s.combinedRanges.length = 1) {flag : Nat} (hst : startResults s = some (r0, flag)) {T : ℚ}
    (hT : 1 / 31622 ≤ T) {cancelled : Bool} {w : McWorld} (hs : McStepsF devF prog T s nT (McWorld.init s r0 cancelled) w) :
    ∃ v, McSteps (fun _ => 0) 1 s nT (McWorld.init s r0 cancelled) v ∧ McWorldClose s.nPlayers v w ∧ FirstBatch prog w.shared := by
  induction hs with
  | refl => exact ⟨_, .refl, init_mcWorldClose hst cancelled, fun _ => start_noBatch hst, fun _ => rfl, fun h => absurd rfl h⟩
  | @step u' v' hsteps hstep ih =>
    obtain ⟨v, g1, g2, g3⟩ := ih
    cases hstep with
    | cancel => exact ⟨_, .step g1 (.cancel v), ⟨g2.locals, rfl, g2.shared.results, g2.shared.fresh, g2.shared.sent⟩, g3.none,
        (fun h => by cases h), g3.head⟩
    | thread t ht hpc ds l' g' hs =>
      obtain ⟨x, y, k1, k2, k3⟩ := follow_one_step hr h1 hst hT hsteps g1 g2 g3 ht hpc hs
      have hpc' := hpc
      rw [(g2.locals t).pc] at hpc'
      exact ⟨_, .step g1 (.thread v t ht hpc' ds x y k1), k2, k3⟩

/-! ## The reported deviation -/

theorem sum_close {es xs : List ℚ} {δ : ℚ} (h : List.Forall₂ (fun e x => |x - e| ≤ δ) es xs) : |xs.sum - es.sum| ≤ es.length * δ := by
  induction h with
  | nil => simp
  | @cons e x es xs h _ ih =>
    rw [List.sum_cons, List.sum_cons, List.length_cons]
    push_cast
    rw [abs_le] at *
    constructor <;> linarith [h.1, h.2, ih.1, ih.2]

theorem sumSq_close {es xs : List ℚ} {δ : ℚ} (h : List.Forall₂ (fun e x => |x - e| ≤ δ) es xs) (he : ∀ e ∈ es, 0 ≤ e ∧ e ≤ 1)
    (hx : ∀ x ∈ xs, 0 ≤ x ∧ x ≤ 2) : |sumSq xs - sumSq es| ≤ es.length * (3 * δ) := by
  unfold sumSq
  induction h with
  | nil => simp
  | @cons e x es xs h _ ih =>
    have h1 := ih (fun y hy => he y (List.mem_cons_of_mem _ hy)) (fun y hy => hx y (List.mem_cons_of_mem _ hy))
    have he' := he e (by simp)
    have hx' := hx x (by simp)
    rw [List.map_cons, List.map_cons, List.sum_cons, List.sum_cons, List.length_cons]
    push_cast
    have h2 : |x * x - e * e| ≤ 3 * δ := by
      have : x * x - e * e = (x - e) * (x + e) := by ring
      rw [this, abs_mul, abs_of_nonneg (show 0 ≤ x + e by linarith)]
      have h0 := abs_nonneg (x - e)
      nlinarith
    rw [abs_le] at *
    constructor <;> linarith [h1.1, h1.2, h2.1, h2.2]

/-- The number under the square root depends little on the estimates. -/
theorem varOf_close {es xs : List ℚ} (h : List.Forall₂ (fun e x => |x - e| ≤ 1 / 2 ^ 42) es xs) (he : ∀ e ∈ es, 0 ≤ e ∧ e ≤ 1)
    (hx : ∀ x ∈ xs, 0 ≤ x ∧ x ≤ 2) : |varOf xs - varOf es| ≤ 6 * es.length / 2 ^ 42 := by
  have hl := h.length_eq
  have h1 := sum_close h
  have h2 := sumSq_close h he hx
  have e0 : 0 ≤ es.sum := List.sum_nonneg fun e hm => (he e hm).1
  have e1 : es.sum ≤ es.length := by
    clear h h1 h2 hl e0
    induction es with
    | nil => simp
    | cons e es ih =>
      have := ih fun y hy => he y (List.mem_cons_of_mem _ hy)
      have := (he e (by simp)).2
      rw [List.sum_cons, List.length_cons]
      push_cast
      linarith
  have x0 : 0 ≤ xs.sum := List.sum_nonneg fun x hm => (hx x hm).1
  have x1 : xs.sum ≤ 2 * xs.length := by
    clear h h1 h2 hl x0
    induction xs with
    | nil => simp
    | cons e xs ih =>
      have := ih fun y hy => hx y (List.mem_cons_of_mem _ hy)
      have := (hx e (by simp)).2
      rw [List.sum_cons, List.length_cons]
      push_cast
      linarith
  unfold varOf
  rw [← hl] at x1 ⊢
  rcases Nat.eq_zero_or_pos es.length with h0 | h0
  · have : es = [] := List.length_eq_zero_iff.1 h0
    subst this
    have : xs = [] := List.length_eq_zero_iff.1 (by rw [← hl]; rfl)
    subst this
    simp
  · have hk : (0 : ℚ) < es.length := by exact_mod_cast h0
    generalize (es.length : ℚ) = k at *
    generalize xs.sum = X at *
    generalize es.sum = E at *
    have h3 : |X * X / k - E * E / k| ≤ 3 * (k * (1 / 2 ^ 42)) := by
      rw [← sub_div, abs_div, abs_of_pos hk, div_le_iff₀ hk]
      have : X * X - E * E = (X - E) * (X + E) := by ring
      rw [this, abs_mul, abs_of_nonneg (show 0 ≤ X + E by linarith)]
      have h4 : X + E ≤ 3 * k := by linarith
      calc |X - E| * (X + E) ≤ k * (1 / 2 ^ 42) * (3 * k) := mul_le_mul h1 h4 (by linarith) (by positivity)
        _ = 3 * (k * (1 / 2 ^ 42)) * k := by ring
    rw [abs_le] at *
    constructor <;> linarith [h2.1, h2.2, h3.1, h3.2]

/-- The statistics of a run together with the estimates without rounding. -/
structure RunStat (s : Sim) (nT : Nat) (w : McWorld) (es xs : List ℚ) : Prop where
  stat : FStat w.shared.results xs
  close : List.Forall₂ (fun e x => |x - e| ≤ 1 / 2 ^ 42) es xs
  mem : ∀ e ∈ es, 0 ≤ e ∧ e ≤ 1
  len : es.length = w.shared.sent.length
  zeros : doneCount w nT ≤ es.count 0
  stdev : es ≠ [] → w.shared.results.stdev = (devF (varianceF w.shared.results.batchSum w.shared.results.batchSum2 w.shared.results.batchCount)
    w.shared.results.batchCount).getD 0

theorem estimate_init (n : Nat) : estimate n (Batch.init n) = 0 := by
  have : ∀ i, firstPart (Batch.init n) i = 0 := by
    intro i
    have h : (Batch.init n).winsByMask i = 0 := rfl
    unfold firstPart
    rw [h]
    split
    · split
      · rfl
      · exact Nat.zero_div _
    · rfl
  unfold estimate
  rw [Finset.sum_eq_zero fun i _ => this i]
  simp

theorem RunStat.step {u : McWorld} {es xs : List ℚ} (h : RunStat s nT u es xs) (hce : s.calcExact = false) (hn : 0 < s.nPlayers ∧ s.nPlayers ≤ 9)
    (hlen : es.length < 2 ^ 50) {f : Bool} {l0 : McLocal} (hids : IdPlayers s.nPlayers l0.stats) (locals : Nat → McLocal) (T : ℚ)
    (hz : doneCount { locals := locals, shared := u.shared.updateF devF prog T s f l0 } nT ≤
      doneCount u nT + if estimate s.nPlayers l0.stats = 0 then 1 else 0) :
    RunStat s nT { locals := locals, shared := u.shared.updateF devF prog T s f l0 } (es ++ [estimate s.nPlayers l0.stats])
      (xs ++ [estimateF s.nPlayers l0.stats u.shared.results]) := by
  have hl := h.close.length_eq
  refine ⟨?_, ?_, ?_, ?_, ?_, ?_⟩
  · have := h.stat.update (by omega) devF hn.1 hn.2 hids l0.hands
    show FStat (u.shared.updateF devF prog T s f l0).results _
    unfold McShared.updateF
    rwa [hce]
  · exact List.rel_append h.close (List.Forall₂.cons (estimateF_close hn.1 hn.2 hids _).2 .nil)
  · intro e hm
    rcases List.mem_append.1 hm with hm | hm
    · exact h.mem e hm
    · rw [List.mem_singleton.1 hm]
      exact estimate_mem _ _
  · show _ = (u.shared.updateF devF prog T s f l0).sent.length
    rw [updateF_sent, ← h.len]
    simp
  · refine hz.trans ?_
    rw [List.count_append]
    have := h.zeros
    split
    · rename_i h0
      rw [h0, List.count_singleton_self]
      omega
    · omega
  · intro _
    show (u.shared.updateF devF prog T s f l0).results.stdev = (devF (varianceF (u.shared.updateF devF prog T s f l0).results.batchSum
      (u.shared.updateF devF prog T s f l0).results.batchSum2 (u.shared.updateF devF prog T s f l0).results.batchCount)
      (u.shared.updateF devF prog T s f l0).results.batchCount).getD 0
    unfold McShared.updateF
    rw [hce]
    exact (updateResultsF_sums devF s.nPlayers l0.stats l0.hands u.shared.results).2.2.2

theorem runStat (hr : McReady ranges b d s) {flag : Nat} (hst : startResults s = some (r0, flag)) {T : ℚ} {cancelled : Bool} {w : McWorld}
    (hs : McStepsF devF prog T s nT (McWorld.init s r0 cancelled) w) (hlen : w.shared.sent.length ≤ 1000) : ∃ es xs, RunStat s nT w es xs := by
  have hce := hr.fields.2.2.2.2.1
  have hn : 0 < s.nPlayers ∧ s.nPlayers ≤ 9 := by have := hr.fields; omega
  induction hs with
  | refl =>
    have hz := (fworld (dev := devF) (prog := prog) (target := T) (nT := nT) hr hst (.refl (w := McWorld.init s r0 cancelled))).sent
    have he0 : (McWorld.init s r0 cancelled).shared.results.evalCount = 0 := congrArg Prod.snd (startResults_counts hst).2.2.1
    have hs0 : (McWorld.init s r0 cancelled).shared.sent.length = 0 := rfl
    exact ⟨[], [], FStat.nil (start_noBatch hst), .nil, by simp, rfl, by omega, fun h => absurd rfl h⟩
  | @step u v hsteps hstep ih =>
    have hw := fworld hr hst hsteps
    have hw' := (fworld hr hst (.step hsteps hstep)).sent
    cases hstep with
    | cancel =>
      obtain ⟨es, xs, h⟩ := ih hlen
      exact ⟨es, xs, h.stat, h.close, h.mem, h.len, h.zeros, h.stdev⟩
    | thread t ht' hpc ds l g h =>
      have he := mcStepF_effect h
      have hc := hw.len t ht'
      have hids := hw.ids t ht'
      have hemp := hw.empty t ht'
      have hsent := hw.sent
      unfold StepEffectF at he
      generalize hl0 : u.locals t = l0 at he hpc hc hids hemp
      have quiet : g = u.shared → ∃ es xs, RunStat s nT { locals := Function.update u.locals t l, shared := g } es xs := by
        intro hg
        subst hg
        obtain ⟨es, xs, h⟩ := ih hlen
        have hz := h.zeros
        simp only at hw'
        exact ⟨es, xs, h.stat, h.close, h.mem, h.len, by omega, h.stdev⟩
      cases hp : l0.pc with
      | start => rw [hp] at he; exact quiet he
      | eval => rw [hp] at he; exact quiet he
      | restart => rw [hp] at he; exact quiet he
      | move => rw [hp] at he; exact quiet he
      | check => rw [hp] at he; exact quiet he.1
      | flush =>
        rw [hp] at he hc
        obtain ⟨rfl, _⟩ := he
        change l0.stats.evalCount = 4096 at hc
        simp only at hw' hlen
        rw [updateF_sent] at hlen
        rw [updateF_evalCount, updateF_sent] at hw'
        obtain ⟨es, xs, h⟩ := ih (by omega)
        have hl := h.len
        exact ⟨_, _, h.step hce hn (by omega) hids _ T (by omega)⟩
      | final =>
        rw [hp] at he hc
        obtain ⟨rfl, _⟩ := he
        change l0.stats.evalCount = 0 at hc
        simp only at hw' hlen
        rw [updateF_sent] at hlen
        rw [updateF_evalCount, updateF_sent] at hw'
        obtain ⟨es, xs, h⟩ := ih (by omega)
        have hl := h.len
        refine ⟨_, _, h.step hce hn (by omega) hids _ T ?_⟩
        rw [hemp hp, if_pos (estimate_init _)]
        omega
      | done => exact absurd hp hpc.1
      | panicked => exact absurd hp hpc.2

/-- The deviation computed, for up to 1000 batches. -/
theorem RunStat.deviation {w : McWorld} {es xs : List ℚ} (h : RunStat s nT w es xs) (h0 : 0 < es.length) (hk : es.length ≤ 1000) :
    0 < w.shared.results.stdev ∧ |(w.shared.results.stdev * es.length) ^ 2 - varOf es| ≤ es.length / 2 ^ 38 := by
  have hl := h.close.length_eq
  have hpos := h.stat.pos (by omega) (by omega)
  have hvar := h.stat.variance (by omega)
  have hc := varOf_close h.close h.mem (fun x hx => ⟨(h.stat.mem x hx).1, by have := (h.stat.mem x hx).2; norm_num at this; linarith⟩)
  have hup := varOf_le (X := 1) es h.mem
  rw [h.stdev (fun e => by rw [e] at h0; exact absurd h0 (by decide)), h.stat.count]
  rw [h.stat.count] at hvar hpos
  rw [← hl] at hvar hpos ⊢
  obtain ⟨dd, h1, h2, h3, h4⟩ := devF_rel (v := varianceF w.shared.results.batchSum w.shared.results.batchSum2 (es.length : ℚ))
    ((tiny_le (n := 35) (by omega)).trans hpos) h0 (by omega) (le_trans (by norm_num) hpos)
  rw [h1, Option.getD_some]
  refine ⟨h2, ?_⟩
  have hk1 : (1 : ℚ) ≤ es.length := by exact_mod_cast h0
  have hk2 : (es.length : ℚ) ≤ 1000 := by exact_mod_cast hk
  have he : eps ≤ 1 := by unfold eps; norm_num
  generalize varianceF w.shared.results.batchSum w.shared.results.batchSum2 _ = v at *
  generalize (es.length : ℚ) = k at *
  generalize (dd * k) ^ 2 = q at *
  have h5 : (k + 2) ^ 2 / 2 ^ 50 ≤ 1010 * k / 2 ^ 50 := by
    apply div_le_div_of_nonneg_right _ (by norm_num)
    nlinarith
  norm_num at h3 h4 h5 hvar hc hup ⊢
  rw [abs_le] at *
  constructor <;> linarith [hvar.1, hvar.2, hc.1, hc.2]

/-! ## A target that cannot be reached -/

theorem devF_nonneg {v c x : ℚ} (hc : 0 ≤ c) (h : devF v c = some x) : 0 ≤ x := by
  unfold devF fsqrt at h
  split at h
  · cases h
  · rename_i d hd
    split at hd
    · cases hd
    · injection hd with hd
      unfold ffdiv at h
      split at h
      · cases h
      · injection h with h
        rw [← h]
        apply fl_nonneg
        rw [← hd]
        have := (sqrtUlp_pos v).le
        positivity

/-- Steps of threads only: nobody else sets the token. -/
inductive ThreadStepsF (dev : ℚ → ℚ → Option ℚ) (prog : Option ℚ → Nat) (target : ℚ) (s : Sim) (nThreads : Nat) (w : McWorld) : McWorld → Prop
  | refl : ThreadStepsF dev prog target s nThreads w w
  | thread {u : McWorld} (t : Nat) (ht : t < nThreads) (hpc : (u.locals t).pc ≠ .done ∧ (u.locals t).pc ≠ .panicked)
      (ds : Draws) (l : McLocal) (g : McShared) (h : mcStepF dev prog target s (u.locals t) u.shared ds = .ok (l, g) []) :
      ThreadStepsF dev prog target s nThreads w u →
      ThreadStepsF dev prog target s nThreads w { locals := Function.update u.locals t l, shared := g }

theorem ThreadStepsF.steps {w v : McWorld} (h : ThreadStepsF dev prog target s nT w v) : McStepsF dev prog target s nT w v := by
  induction h with
  | refl => exact .refl
  | thread t ht hpc ds l g h _ ih => exact .step ih (.thread _ t ht hpc ds l g h)

/-- With a single combined range, no thread leaves its loop if the deviation is never below the target.  (It may be `NaN`.) -/
theorem never_leavesF (hr : McReady ranges b d s) (h1 : s.combinedRanges.length = 1) {flag : Nat} (hst : startResults s = some (r0, flag))
    (hdev : ∀ v c x, 0 ≤ c → dev v c = some x → target ≤ x) {w : McWorld} (hs : ThreadStepsF dev prog target s nT (McWorld.init s r0 false) w) :
    w.shared.stopped = false ∧ 0 ≤ w.shared.results.batchCount ∧ ∀ t < nT, (w.locals t).pc ≠ .final ∧ (w.locals t).pc ≠ .done := by
  obtain ⟨e1, _, _, _, hce, e2, _⟩ := hr.fields
  induction hs with
  | refl => exact ⟨rfl, by rw [show (McWorld.init s r0 false).shared.results.batchCount = 0 from (start_noBatch hst).2.2],
      fun t _ => ⟨(fun h => by cases h), (fun h => by cases h)⟩⟩
  | @thread u t ht hpc ds l g h hsteps ih =>
    obtain ⟨i1, i2, i3⟩ := ih
    obtain ⟨v, g1, g2⟩ := McStepsF.follow (by omega) hce (init_mcWorldClose hst false) hsteps.steps
    obtain ⟨x, y, f1, f2, _⟩ := mcStep_close (by omega) hce (g2.locals t) g2.shared h
    have he := mcStepF_effect h
    have he' := mcStep_effect f1
    have hpcs := (g2.locals t).pc
    have hpx := f2.pc
    have hg : g.stopped = false ∧ 0 ≤ g.results.batchCount := by
      unfold StepEffectF at he
      cases hp : (u.locals t).pc with
      | flush =>
        rw [hp] at he
        rw [he.1]
        have hc : 0 ≤ (u.shared.updateF dev prog target s false (u.locals t)).results.batchCount := by
          unfold McShared.updateF
          simp only
          rw [hce, (updateResultsF_sums dev s.nPlayers _ _ _).2.2.1]
          exact fl_nonneg (by linarith)
        refine ⟨?_, hc⟩
        unfold McShared.updateF at hc ⊢
        simp only at hc ⊢
        rw [if_neg, i1]
        rintro ⟨_, hany⟩
        rw [Option.any_eq_true] at hany
        obtain ⟨q, hq, hlt⟩ := hany
        have := hdev _ _ _ hc hq
        exact absurd (of_decide_eq_true hlt) (not_lt.2 this)
      | final => exact absurd hp (i3 t ht).1
      | done => exact absurd hp hpc.1
      | panicked => exact absurd hp hpc.2
      | check => rw [hp] at he; rw [he.1]; exact ⟨i1, i2⟩
      | start => rw [hp] at he; rw [he]; exact ⟨i1, i2⟩
      | eval => rw [hp] at he; rw [he]; exact ⟨i1, i2⟩
      | restart => rw [hp] at he; rw [he]; exact ⟨i1, i2⟩
      | move => rw [hp] at he; rw [he]; exact ⟨i1, i2⟩
    refine ⟨hg.1, hg.2, fun a ha => ?_⟩
    by_cases e : a = t
    · subst e
      simp only [Function.update_self]
      have hst' := single_start (sqrt := fun _ => 0) (target := 0) (l := v.locals a) hr h1 (rest := []) (ds := ds) (g := v.shared) (l' := x) (g' := y)
      unfold StepEffectF at he
      unfold StepEffect at he'
      cases hp : (v.locals a).pc with
      | start =>
        rw [hp] at he'
        refine ⟨by rw [hpx]; exact hst' (Or.inl hp) f1, ?_⟩
        rw [hpx]
        rcases he'.2.2.2 with h2 | h2 | h2 <;> rw [h2] <;> decide
      | eval =>
        rw [hp] at he'
        rw [hpx]
        rcases he'.2.1 with h2 | h2 | h2 <;> rw [h2] <;> decide
      | flush => rw [hpcs, hp] at he; rw [he.2]; exact ⟨(fun h => by cases h), (fun h => by cases h)⟩
      | check => rw [hpcs, hp] at he; rw [he.2, i1]; exact ⟨(fun h => by cases h), (fun h => by cases h)⟩
      | restart =>
        rw [hp] at he'
        refine ⟨by rw [hpx]; exact hst' (Or.inr hp) f1, ?_⟩
        rw [hpx]
        rcases he'.2.2.2 with h2 | h2 | h2 <;> rw [h2] <;> decide
      | move =>
        rw [hp] at he'
        rw [hpx]
        rcases he'.2.2.2 with h2 | h2 <;> rw [h2] <;> decide
      | final => exact absurd (hpcs.trans hp) (i3 a ha).1
      | done => exact absurd (hpcs.trans hp) hpc.1
      | panicked => exact absurd (hpcs.trans hp) hpc.2
    · simp only [Function.update_of_ne e]
      exact i3 a ha

end

end Pokers
