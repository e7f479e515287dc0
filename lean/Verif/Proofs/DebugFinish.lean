import Verif.Proofs.DebugRelease
import Verif.Proofs.ProgramBelow
/-!
# The debug build and the release build with floating-point numbers

What the debug build computes after the threads have finished is what the release build computes, unless it panics; and the threads of the
two builds make the same steps, unless a thread of the debug build panics.
-/
namespace Pokers

theorem divC_sound {a b c : Nat} (h : divC a b = some c) : c = a / b := by
  unfold divC at h
  split at h
  · cases h
  · exact (Option.some.inj h).symm

theorem finalHandCF_sound {hand : UnitResults} {a : Agg} {x : UnitResults × Agg} (h : finalHandCF hand a = some x) : x = finalHandF hand a := by
  unfold finalHandCF at h
  unfold finalHandF
  by_cases hc : hand.valid = true
  · rw [if_pos hc] at h ⊢
    by_cases hc' : hand.total > 0
    · rw [if_pos hc'] at h ⊢
      simp only [Option.bind_eq_bind] at h
      obtain ⟨x1, h1, h⟩ := Option.bind_eq_some_iff.1 h
      obtain ⟨x2, h2, h⟩ := Option.bind_eq_some_iff.1 h
      obtain ⟨x3, h3, h⟩ := Option.bind_eq_some_iff.1 h
      obtain ⟨x4, h4, h⟩ := Option.bind_eq_some_iff.1 h
      obtain ⟨x5, h5, h⟩ := Option.bind_eq_some_iff.1 h
      rw [← Option.some.inj h, (fits_sound h1).1, (fits_sound h2).1, (fits_sound h3).1, (fits_sound h4).1, (fits_sound h5).1]
    · rw [if_neg hc'] at h ⊢
      exact (Option.some.inj h).symm
  · rw [if_neg hc] at h ⊢
    exact (Option.some.inj h).symm

theorem finalComboCF_sound {size : Nat} {a : Agg} {u : UnitResults} (h : finalComboCF size a = some u) : u = finalComboF size a := by
  unfold finalComboCF at h
  unfold finalComboF
  by_cases hc : a.counter > 0
  · rw [if_pos hc] at h ⊢
    by_cases hbig : a.total > U64_MAX
    · simp only [hbig, if_true, Option.bind_eq_bind] at h ⊢
      obtain ⟨x1, h1, h⟩ := Option.bind_eq_some_iff.1 h
      obtain ⟨x2, h2, h⟩ := Option.bind_eq_some_iff.1 h
      obtain ⟨x3, h3, h⟩ := Option.bind_eq_some_iff.1 h
      obtain ⟨x4, h4, h⟩ := Option.bind_eq_some_iff.1 h
      obtain ⟨x5, h5, h⟩ := Option.bind_eq_some_iff.1 h
      rw [← Option.some.inj h, divC_sound h2, divC_sound h3, divC_sound h4, divC_sound h5, (fits_sound h1).1]
    · simp only [hbig, if_false, Option.bind_eq_bind, Option.bind_some] at h ⊢
      obtain ⟨x5, h5, h⟩ := Option.bind_eq_some_iff.1 h
      rw [← Option.some.inj h, divC_sound h5]
  · rw [if_neg hc] at h ⊢
    exact (Option.some.inj h).symm

theorem finalHandsCF_sound {len start size : Nat} {hr : Nat → UnitResults} {x : (Nat → UnitResults) × Agg}
    (h : finalHandsCF len start size hr = some x) : x = finalHandsF start size hr := by
  unfold finalHandsCF at h
  unfold finalHandsF
  refine foldlM_sound ?_ _ _ _ h
  intro x k t ht
  simp only [Option.bind_eq_bind] at ht
  split at ht
  · rw [Option.bind_some] at ht
    obtain ⟨y, hy, ht⟩ := Option.bind_eq_some_iff.1 ht
    rw [← Option.some.inj ht, finalHandCF_sound hy]
  · cases ht

theorem finalPlayerCF_sound (len i : Nat) : ∀ (fuel j : Nat) (hr : Nat → UnitResults) (cs : List UnitResults) (x : (Nat → UnitResults) × List UnitResults),
    finalPlayerCF len i fuel j hr cs = some x → x = finalPlayerF i fuel j hr cs := by
  intro fuel
  induction fuel with
  | zero => intro j hr cs x h; exact (Option.some.inj h).symm
  | succ fuel ih =>
    intro j hr cs x h
    unfold finalPlayerCF at h
    unfold finalPlayerF
    by_cases hj : j < NUM_HANDS
    · rw [if_pos hj] at h ⊢
      simp only [Option.bind_eq_bind] at h
      obtain ⟨y, hy, h⟩ := Option.bind_eq_some_iff.1 h
      obtain ⟨c, hc, h⟩ := Option.bind_eq_some_iff.1 h
      simp only
      rw [← finalHandsCF_sound hy, ← finalComboCF_sound hc]
      exact ih _ _ _ _ h
    · rw [if_neg hj] at h ⊢
      exact (Option.some.inj h).symm

theorem generateFinalDataCF_sound {n : Nat} {r x : Results} (h : generateFinalDataCF n r = some x) : x = generateFinalDataF n r := by
  unfold generateFinalDataCF at h
  unfold generateFinalDataF
  simp only [Option.bind_eq_bind] at h
  obtain ⟨y, hy, h⟩ := Option.bind_eq_some_iff.1 h
  have := foldlM_sound (f := fun (x : (Nat → UnitResults) × List UnitResults) i => finalPlayerF i NUM_HANDS 0 x.1 x.2)
    (fun x i t ht => finalPlayerCF_sound _ _ _ _ _ _ _ ht) _ _ _ hy
  rw [← Option.some.inj h, this]

theorem addHandCF_sound {len : Nat} {t t' : Nat → BigUnitResults} {k : Nat} {u : UnitResults} (h : addHandCF len t k u = some t') :
    t' = Function.update t k ((t k).addHandF u) := by
  unfold addHandCF at h
  split at h
  · simp only [Option.bind_eq_bind] at h
    obtain ⟨x1, h1, h⟩ := Option.bind_eq_some_iff.1 h
    obtain ⟨x2, h2, h⟩ := Option.bind_eq_some_iff.1 h
    obtain ⟨x3, h3, h⟩ := Option.bind_eq_some_iff.1 h
    obtain ⟨x4, h4, h⟩ := Option.bind_eq_some_iff.1 h
    rw [← Option.some.inj h, (fits_sound h1).1, (fits_sound h2).1, (fits_sound h3).1, (fits_sound h4).1]
    rfl
  · cases h

theorem boardHandCF_sound {n i : Nat} {u : UnitResults} {t t' : (Nat → BigUnitResults) × (Nat → BigUnitResults)} (h : boardHandCF n i u t = some t') :
    t' = boardHandF i u t := by
  unfold boardHandCF at h
  unfold boardHandF
  by_cases hc : u.valid = true
  · rw [if_pos hc] at h ⊢
    simp only [Option.bind_eq_bind] at h ⊢
    obtain ⟨ranks, h1, h⟩ := Option.bind_eq_some_iff.1 h
    obtain ⟨draws, h2, h⟩ := Option.bind_eq_some_iff.1 h
    have h2 := foldlM_sound (f := fun d k =>
      if u.draw &&& (1 <<< k) ≠ 0 then Function.update d (i * 10 + k) ((d (i * 10 + k)).addHandF u) else d) (by
      intro d k d' hd
      obtain ⟨bit, hb, hd⟩ := Option.bind_eq_some_iff.1 hd
      have hb' : bit = 1 <<< k := by
        unfold shlC at hb
        split at hb
        · rename_i hk
          rw [← Option.some.inj hb, Nat.one_shiftLeft]
          exact Nat.mod_eq_of_lt (Nat.pow_lt_pow_right (by decide) hk)
        · cases hb
      subst hb'
      split at hd
      · rename_i hx; rw [if_pos hx]; exact addHandCF_sound hd
      · rename_i hx; rw [if_neg hx]; exact (Option.some.inj hd).symm) _ _ _ h2
    rw [← addHandCF_sound h1, ← h2]
    generalize nutIndex u.draw = o at h ⊢
    cases o with
    | none => exact (Option.some.inj h).symm
    | some k =>
      obtain ⟨dr, h3, h⟩ := Option.bind_eq_some_iff.1 h
      rw [← Option.some.inj h, addHandCF_sound h3]
  · rw [if_neg hc] at h ⊢
    exact (Option.some.inj h).symm

theorem boardTablesCF_sound {n : Nat} {hr : Nat → UnitResults} {t : (Nat → BigUnitResults) × (Nat → BigUnitResults)}
    (h : boardTablesCF n hr = some t) : t = boardTablesF n hr := by
  unfold boardTablesCF at h
  unfold boardTablesF
  refine foldlM_sound (fun t i t' ht => foldlM_sound ?_ _ _ _ ht) _ _ _ h
  intro t j t' ht
  simp only [Option.bind_eq_bind] at ht
  split at ht
  · exact boardHandCF_sound ht
  · cases ht

theorem generateBoardDataCF_sound {n : Nat} {r x : Results} (h : generateBoardDataCF n r = some x) : x = generateBoardDataF n r := by
  unfold generateBoardDataCF at h
  simp only [Option.bind_eq_bind] at h
  obtain ⟨t, ht, h⟩ := Option.bind_eq_some_iff.1 h
  rw [← Option.some.inj h, boardTablesCF_sound ht]
  rfl

theorem finishResultsCF_sound {s : Sim} (hwf : ∀ r ∈ s.handRanges, WfRange r) (hlen : s.handRanges.length = s.nPlayers) (hn : s.nPlayers ≤ 16)
    {flag : Nat} {r x : Results} (h : finishResultsCF s flag r = some x) : x = finishResultsF s flag r := by
  unfold finishResultsCF at h
  unfold finishResultsF
  rw [← hlen, fixHandWeightsC_eq hwf (by omega), hlen] at h
  simp only [Option.bind_eq_bind, Option.bind_some] at h ⊢
  obtain ⟨y, hy, h⟩ := Option.bind_eq_some_iff.1 h
  rw [← generateFinalDataCF_sound hy]
  by_cases hc : countOnes s.boardMask > 2
  · rw [if_pos hc] at h ⊢
    exact generateBoardDataCF_sound h
  · rw [if_neg hc] at h ⊢
    exact (Option.some.inj h).symm

/-! ## The threads -/

theorem exact_below {s : Sim} (hex : s.calcExact = true) (ds : List DividerU64) (total size : Nat) :
    (exactDebugF s ds total size).Below (exactRelease s ds total size) where
  kind := rfl
  after := rfl
  fail := rfl
  usesPos := rfl
  progress := rfl
  stop := rfl
  failed _ := rfl
  up l st l' hk h := by
    unfold exactDebugF exactProgram at h hk
    unfold exactRelease exactProgram exactDebugF
    simp only at h hk ⊢
    cases e : l.pc <;> rw [e] at h hk <;> first | (cases hk; done) | skip
    · simp only at h ⊢
      cases hp : s.processPosCF ds l.pos (l.stats, l.hands) with
      | none => rw [hp] at h; simp only at h; subst h; exact Or.inr rfl
      | some x => rw [hp] at h; rw [processPosCF_sound hp]; exact Or.inl h
    · exact Or.inl h
  down l st l' hk h := by
    unfold exactRelease exactProgram at h
    unfold exactDebugF exactProgram at hk ⊢
    simp only at h hk ⊢
    cases e : l.pc <;> rw [e] at h hk <;> first | (cases hk; done) | skip
    · simp only at h ⊢
      cases hp : s.processPosCF ds l.pos (l.stats, l.hands) with
      | none => exact Or.inr trivial
      | some x => rw [processPosCF_sound hp] at h; exact Or.inl h
    · exact Or.inl h
  reserve l pos x h := by
    obtain ⟨e, he, rfl⟩ := Option.map_eq_some_iff.1 h
    rw [fits_wrap he]
    rfl
  merge l r x h := congrArg some (by
    have h : updateResultsCF (fun _ _ => none) s.nPlayers s.calcExact l.stats l.hands r = some x := h
    rw [hex] at h
    exact (updateResultsCF_exact h).symm)

theorem weightC_wrap {w : Walk} {x : Nat} (h : w.weightC = some x) : x = w.weightR :=
  foldlM_sound (f := fun x i => wrap (x * w.weights i)) (fun _ _ _ => fits_wrap) _ _ _ h

theorem evalDealCF_cases (s : Sim) (l : McLocal) (ds : Draws) : evalDealCF s l ds = .panic ∨ evalDealCF s l ds = evalDealR s l ds := by
  unfold evalDealCF evalDealR
  cases subC 5 s.fixedBoard.count with
  | none => exact Or.inl rfl
  | some k =>
    simp only
    cases hw : l.walk.weightC with
    | none => exact Or.inl rfl
    | some weight =>
      simp only
      rw [← weightC_wrap hw]
      cases randomizeBoard k (l.walk.used ||| s.deadMask) s.fixedBoard ds with
      | more => exact Or.inr rfl
      | panic => exact Or.inl rfl
      | ok board ds =>
        simp only
        cases he : evaluateHandsCF s.nPlayers (s.nPlayers * NUM_HANDS) l.walk.hands weight board l.walk.lookup true (l.stats, l.hands) with
        | none => exact Or.inl rfl
        | some st => exact Or.inr (by rw [← evaluateHandsCF_sound he])

theorem mcStep_params {sqrt sqrt' : ℚ → ℚ} {target target' : ℚ} {s : Sim} {l : McLocal} (h : l.pc ≠ .flush ∧ l.pc ≠ .final) (g : McShared) (ds : Draws) :
    mcStep sqrt target s l g ds = mcStep sqrt' target' s l g ds := by
  unfold mcStep
  cases e : l.pc <;> first | rfl | exact absurd e h.1 | exact absurd e h.2

theorem approx_below {s : Sim} (hex : s.calcExact = false) (target : ℚ) : (approxDebugF target s).Below (approxRelease target s) where
  kind := rfl
  after := rfl
  fail := rfl
  usesPos := rfl
  progress := rfl
  stop := rfl
  failed _ := rfl
  up l st l' hk h := by
    obtain ⟨g, ds, g', hg, h⟩ := h
    have hc := mcKind_compute hk
    by_cases e : l.pc = .eval
    · unfold mcStepCF at h
      rw [e] at h
      simp only at h
      rcases evalDealCF_cases s l ds with hv | hv
      · rw [hv] at h
        simp only at h
        cases h
        exact Or.inr rfl
      · rw [hv] at h
        refine Or.inl ⟨g, ds, g', hg, ?_⟩
        unfold mcStepR
        rw [e]
        exact h
    · refine Or.inl ⟨g, ds, g', hg, ?_⟩
      rw [← h]
      unfold mcStepR mcStepCF
      cases e' : l.pc <;> simp only <;> first
        | exact absurd e' e
        | exact absurd (Or.inl e') hc.1
        | exact absurd (Or.inr e') hc.1
        | exact mcStep_params ⟨by rw [e']; decide, by rw [e']; decide⟩ g ds
  down l st l' hk h := by
    obtain ⟨g, ds, g', hg, h⟩ := h
    have hc := mcKind_compute hk
    by_cases e : l.pc = .eval
    · unfold mcStepR at h
      rw [e] at h
      simp only at h
      rcases evalDealCF_cases s l ds with hv | hv
      · refine Or.inr ⟨g, ds, g, hg, ?_⟩
        unfold mcStepCF
        rw [e]
        simp only [hv]
        rfl
      · rw [← hv] at h
        refine Or.inl ⟨g, ds, g', hg, ?_⟩
        unfold mcStepCF
        rw [e]
        exact h
    · refine Or.inl ⟨g, ds, g', hg, ?_⟩
      rw [← h]
      unfold mcStepR mcStepCF
      cases e' : l.pc <;> simp only <;> first
        | exact absurd e' e
        | exact absurd (Or.inl e') hc.1
        | exact absurd (Or.inr e') hc.1
        | exact mcStep_params ⟨by rw [e']; decide, by rw [e']; decide⟩ g ds
  reserve l pos x h := by cases h
  merge l r x h := congrArg some (by
    have h : updateResultsCF devF s.nPlayers s.calcExact l.stats l.hands r = some x := h
    rw [hex] at h
    exact (updateResultsCF_approx h).symm)

end Pokers
