import Verif.Proofs.DebugFloat
import Verif.Proofs.ProgramBelow
import Verif.Proofs.Builds
/-!
# The threads of a debug build with floating-point numbers make the steps of those with exact numbers

so that they panic in the same places.
-/
namespace Pokers

theorem HandsSame.refl (hs : HandStats) : HandsSame hs hs := fun _ => ⟨rfl, rfl, rfl, rfl, rfl, rfl, rfl⟩

/-- Threads of the exact calculation that differ in floating-point numbers only. -/
def LocalSame (l l' : Local) : Prop := ∃ hs, HandsSame l.hands hs ∧ l' = { l with hands := hs }

theorem exact_sim (s : Sim) (ds : List DividerU64) (total size : Nat) :
    (exactDebug s ds total size).Sim (exactDebugF s ds total size) LocalSame ResSame where
  kind h := by obtain ⟨hs, _, rfl⟩ := h; rfl
  compute := by
    rintro l _ st k' ⟨hs, hh, rfl⟩ hk hc
    unfold exactDebugF exactProgram at hc hk
    unfold exactDebug exactProgram
    simp only at hc hk ⊢
    cases e : l.pc <;> rw [e] at hc hk <;> first | (cases hk; done) | skip
    · simp only at hc ⊢
      have hp := processPos_ints s ds l.pos (st := (l.stats, l.hands)) (st' := (l.stats, hs)) ⟨rfl, hh⟩
      cases hx : s.processPosC ds l.pos (l.stats, l.hands) with
      | none =>
        rw [hx] at hp
        rw [(Option.Rel.none_iff hp).2 rfl] at hc
        exact ⟨_, rfl, hs, hh, hc⟩
      | some x =>
        rw [hx] at hp
        cases hy : s.processPosCF ds l.pos (l.stats, hs) with
        | none => rw [hy] at hp; cases hp
        | some y =>
          rw [hy] at hp hc
          obtain ⟨x1, x2⟩ := x
          obtain ⟨y1, y2⟩ := y
          cases hp with
          | some hp =>
            obtain ⟨hp1, hp2⟩ := hp
            simp only at hp1 hp2
            subst hp1
            refine ⟨_, rfl, y2, ?_, ?_⟩
            · simp only; split <;> exact hp2
            · rw [hc]; simp only; split <;> rfl
    · simp only at hc ⊢
      refine ⟨_, rfl, hs, ?_, ?_⟩
      · split <;> exact hh
      · rw [hc]; split <;> rfl
  reserve := by
    rintro l _ pos ⟨hs, hh, rfl⟩
    refine rel_map (rel_eq rfl) ?_
    rintro e _ rfl
    exact ⟨⟨hs, hh, rfl⟩, rfl⟩
  merge := by
    rintro l _ r r' ⟨hs, hh, rfl⟩ hr
    exact updateResults_ints id (fun _ _ => none) s.nPlayers s.calcExact (st := (l.stats, l.hands)) (st' := (l.stats, hs)) ⟨rfl, hh⟩ hr
  after h := by
    obtain ⟨hs, hh, rfl⟩ := h
    show LocalSame (Local.afterUpdate _ _) (Local.afterUpdate _ _)
    unfold Local.afterUpdate
    simp only
    split
    · exact ⟨_, HandsSame.refl _, rfl⟩
    · exact ⟨hs, hh, rfl⟩
  fail h := by obtain ⟨hs, hh, rfl⟩ := h; exact ⟨hs, hh, rfl⟩
  stop _ := rfl

/-- Threads of the random simulation that differ in floating-point numbers only. -/
def McLocalSame (l l' : McLocal) : Prop := ∃ hs, HandsSame l.hands hs ∧ l' = { l with hands := hs }

/-- Results that differ in floating-point numbers only; the deviation of the first is zero. -/
def ResSame₀ (r r' : Results) : Prop := ResSame r r' ∧ r.stdev = 0

theorem evalDeal_ints (s : Sim) {l : McLocal} {hs : HandStats} (hh : HandsSame l.hands hs) (ds : Draws) :
    match evalDealCF s { l with hands := hs } ds with
    | .ok k' rest => ∃ k, evalDealC s l ds = .ok k rest ∧ McLocalSame k k'
    | .more => evalDealC s l ds = .more
    | .panic => evalDealC s l ds = .panic := by
  unfold evalDealCF evalDealC
  cases subC 5 s.fixedBoard.count with
  | none => rfl
  | some k =>
    simp only
    cases l.walk.weightC with
    | none => rfl
    | some weight =>
      simp only
      cases randomizeBoard k (l.walk.used ||| s.deadMask) s.fixedBoard ds with
      | more => rfl
      | panic => rfl
      | ok board ds =>
        simp only
        have hp := evaluateHands_ints (n := s.nPlayers) (len := s.nPlayers * NUM_HANDS) (hands := l.walk.hands) (weight := weight) (board := board)
          (lookup := l.walk.lookup) (flush := true) (st := (l.stats, l.hands)) (st' := (l.stats, hs)) ⟨rfl, hh⟩
        generalize evaluateHandsC s.nPlayers (s.nPlayers * NUM_HANDS) l.walk.hands weight board l.walk.lookup true (l.stats, l.hands) = x at hp
        generalize evaluateHandsCF s.nPlayers (s.nPlayers * NUM_HANDS) l.walk.hands weight board l.walk.lookup true (l.stats, hs) = y at hp
        cases hp with
        | none => rfl
        | @some a b hp =>
          refine ⟨_, rfl, b.2, hp.2, ?_⟩
          rw [hp.1]

theorem mcStep_ints {s : Sim} {l : McLocal} (hpc : l.pc.kind = .compute) (he : l.pc ≠ .eval) (hs : HandStats) (g : McShared) {sqrt sqrt' : ℚ → ℚ}
    {target target' : ℚ} {ds rest : Draws} {k' : McLocal} {g' : McShared} (h : mcStep sqrt' target' s { l with hands := hs } g ds = .ok (k', g') rest) :
    ∃ k, mcStep sqrt target s l g ds = .ok (k, g') rest ∧ k.hands = l.hands ∧ k' = { k with hands := hs } := by
  unfold mcStep at h ⊢
  simp only at h
  cases e : l.pc <;> rw [e] at h hpc he <;> first | (cases hpc; done) | (exact absurd rfl he) | skip
  all_goals simp only at h ⊢
  all_goals (repeat' split at h)
  all_goals first
    | (cases h; done)
    | (cases h; exact ⟨_, rfl, rfl, rfl⟩)
    | (cases h; simp only [*]; exact ⟨_, rfl, rfl, rfl⟩)

theorem updateResultsC_stdev {n : Nat} {ex : Bool} {b : Batch} {hb : HandStats} {r x : Results}
    (h : updateResultsC (fun _ => 0) n ex b hb r = some x) (h0 : r.stdev = 0) : x.stdev = 0 := by
  unfold updateResultsC at h
  simp only [Option.bind_eq_bind] at h
  obtain ⟨hand, _, h⟩ := Option.bind_eq_some_iff.1 h
  obtain ⟨m, _, h⟩ := Option.bind_eq_some_iff.1 h
  obtain ⟨ev, _, h⟩ := Option.bind_eq_some_iff.1 h
  cases ex
  · rw [← Option.some.inj h]; exact zero_div _
  · rw [← Option.some.inj h]; exact h0

theorem approx_sim (target : ℚ) (s : Sim) : (approxDebug (fun _ => 0) 0 s).Sim (approxDebugF target s) McLocalSame ResSame₀ where
  kind h := by obtain ⟨hs, _, rfl⟩ := h; rfl
  compute := by
    rintro l _ st k' ⟨hs, hh, rfl⟩ hk ⟨g, ds, g', hg, hc⟩
    by_cases e : l.pc = .eval
    · unfold mcStepCF at hc
      simp only [e] at hc
      have hv := evalDeal_ints s hh ds
      rw [show ({ pc := .eval, walk := l.walk, stats := l.stats, hands := hs } : McLocal) = { l with hands := hs } by rw [← e]] at hc
      cases hev : evalDealCF s { l with hands := hs } ds with
      | more => rw [hev] at hc; cases hc
      | panic =>
        rw [hev] at hc hv
        simp only at hc hv
        refine ⟨{ l with pc := .panicked }, ⟨g, ds, g, hg, ?_⟩, hs, hh, ?_⟩
        · unfold mcStepC
          rw [e]
          simp only [hv]
        · cases hc; rfl
      | ok m rest =>
        rw [hev] at hc hv
        simp only at hc hv
        obtain ⟨k, hv, hs', hh', rfl⟩ := hv
        cases hc
        refine ⟨{ k with pc := if k.stats.evalCount &&& 0xfff = 0 then .flush else .move }, ⟨g, ds, g, hg, ?_⟩, hs', hh', rfl⟩
        unfold mcStepC
        rw [e]
        simp only [hv]
    · have hc' : mcStep id 0 s { l with hands := hs } g ds = .ok (k', g') [] := by
        rw [← hc]
        unfold mcStepCF
        cases e' : l.pc <;> first | rfl | exact absurd e' e
      obtain ⟨k, h1, h2, h3⟩ := mcStep_ints (l := l) (sqrt := fun _ => 0) (target := 0) hk e hs g hc'
      refine ⟨k, ⟨g, ds, g', hg, ?_⟩, hs, by rw [h2]; exact hh, h3⟩
      have hk' := mcKind_compute (pc := l.pc) hk
      unfold mcStepC
      split
      · rename_i e'; exact absurd e' e
      · rename_i e'; exact absurd (Or.inl e') hk'.1
      · rename_i e'; exact absurd (Or.inr e') hk'.1
      · exact h1
  reserve := fun _ => .none
  merge := by
    rintro l _ r r' ⟨hs, hh, rfl⟩ ⟨hr, h0⟩
    have h := updateResults_ints (fun _ => 0) devF s.nPlayers s.calcExact (st := (l.stats, l.hands)) (st' := (l.stats, hs)) ⟨rfl, hh⟩ hr
    show Option.Rel ResSame₀ (updateResultsC (fun _ => 0) s.nPlayers s.calcExact l.stats l.hands r) (updateResultsCF devF s.nPlayers s.calcExact l.stats hs r')
    simp only at h
    cases e : updateResultsC (fun _ => 0) s.nPlayers s.calcExact l.stats l.hands r with
    | none => rw [e] at h; rw [(Option.Rel.none_iff h).2 rfl]; exact .none
    | some x =>
      have hx := updateResultsC_stdev e h0
      rw [e] at h
      generalize updateResultsCF devF s.nPlayers s.calcExact l.stats hs r' = y at h
      cases h with
      | some h => exact .some ⟨h, hx⟩
  after h := by
    obtain ⟨hs, hh, rfl⟩ := h
    show McLocalSame (McLocal.afterUpdate _ _) (McLocal.afterUpdate _ _)
    unfold McLocal.afterUpdate
    simp only
    split
    · exact ⟨_, HandsSame.refl _, rfl⟩
    · exact ⟨hs, hh, rfl⟩
  fail h := by obtain ⟨hs, hh, rfl⟩ := h; exact ⟨hs, hh, rfl⟩
  stop := by
    rintro l r r' ⟨_, h⟩
    show (!l.finished && decide (r.stdev < 0)) = false
    rw [h]
    simp

end Pokers
