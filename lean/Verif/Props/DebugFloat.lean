import Verif.Proofs.DebugMc
import Verif.Props.FloatStop
import Verif.Props.Whole
/-!
# C85: a debug build with floating-point numbers

The theorems C51, C59, C68 and C81 about a debug build have exact rational numbers in place of `f64` numbers.  Here the debug build has both: its
integers are checked and its `f64` numbers are rounded.  So it differs from the release build of C75, C78 and C81 only in that it panics
where the release build wraps around.
-/
namespace Pokers
open Spec

section
variable {ranges : List (List Combo)} {b d nT : Nat} {cancelled stopped : Bool} {cb : CallbackP} {calls : List Nat}

theorem exact_lists (hwf : ∀ r ∈ ranges, WfRange r) {s : Sim} (hok : prepareExact ranges b d = .ok s) :
    (∀ r ∈ s.handRanges, WfRange r) ∧ s.handRanges.length = s.nPlayers ∧ s.nPlayers ≤ 16 ∧ s.calcExact = true := by
  have ha := prepareExact_ok hok
  have hands : s.handRanges = ranges.map (fun h => removeConflictingCombos h b d) := by rw [ha.sim]; rfl
  have hn : s.nPlayers = ranges.length := by rw [ha.sim]; simp [Sim.new]
  refine ⟨by rw [hands]; exact (filtered_board_hand hwf b d).1, by rw [hands, hn]; simp, ?_, by rw [ha.sim]; rfl⟩
  rw [hn]; have := ha.players.2; omega

/-! ## The exact calculation -/

/-- C85: whatever `exact_equity` returns in a debug build, it can also return in a release build: the same results, to the last bit, with the
same calls of the callback.  Nothing is assumed about sizes, weights or the number of threads. -/
theorem C85_exact_returned (hwf : ∀ r ∈ ranges, WfRange r) {res : Except SimulatorError Results}
    (h : ExactDebugF ranges b d nT cancelled stopped cb (.returned res) calls) : ExactRelease ranges b d nT cancelled stopped cb (.returned res) calls := by
  unfold ExactDebugF at h
  unfold ExactRelease
  cases hp : prepareExact ranges b d with
  | error e => rw [hp] at h; exact h
  | ok s =>
    rw [hp] at h
    simp only at h ⊢
    obtain ⟨l1, l2, l3, l4⟩ := exact_lists hwf hp
    split at h
    · cases h.1
    · rename_i r0 flag hst
      rcases h with ⟨ds, total, size, k, x, h1, h2, h3, h4, ⟨h5, r, h6, h7⟩, h8, h9⟩ | ⟨_, _, h, _⟩
      · rw [preflopComboCountR_eq h2]
        obtain ⟨g1, g2⟩ := (exact_below l4 ds total size).returns h4 h5
        refine ⟨r0, flag, ds, size, k, x, (C68_start hwf hp).1.symm.trans hst, h1, h3, g1, ⟨g2, _, rfl, ?_⟩, h8, h9⟩
        rw [h7, finishResultsCF_sound l1 l2 l3 h6]
      · cases h

theorem exactF_no_panic {s : Sim} {ds : List DividerU64} {total size : Nat} (hr : Ready ranges b d s ds total size) (hS : Small ranges b d)
    {r0 : Results} {flag : Nat} (h0 : startResults s = some (r0, flag)) (hroom : total + size < 2 ^ 64) {k : Nat} {x : Call Local Results}
    (h : Call.Steps (exactDebugF s ds total size) nT cb (Call.init (Local.init s.nPlayers) r0 cancelled) k x) :
    ∀ t < nT, (exactDebugF s ds total size).kind (x.threads.locals t) ≠ .panicked := by
  intro t ht hk
  obtain ⟨v', j, g1, u, hu, g2⟩ := h.root (exactProgram_lawful _ _ _ _ _ _) ⟨t, ht, hk⟩
  obtain ⟨v, g3, g4⟩ := (exact_sim s ds total size).steps (u := (Call.init (Local.init s.nPlayers) r0 cancelled).threads.toPool)
    ⟨fun _ => ⟨_, HandsSame.refl _, rfl⟩, ResSame.refl _, rfl, rfl, rfl⟩ g1
  refine C51_no_panic hr hS h0 hroom (exactDebug_steps g3 : StepsC s ds total size nT (World.init s r0 cancelled) v.world) u ?_
  exact kind_panicked.1 (((exact_sim s ds total size).kind (g4.locals u)).trans g2)

theorem exactF_finish (hwf : ∀ r ∈ ranges, WfRange r) (hb : CardMask b) (hd : CardMask d) (hS : SmallDeals ranges b d) {s : Sim}
    (hp : prepareExact ranges b d = .ok s) {ds : List DividerU64} {total size : Nat} (h1 : s.fastDividers = some ds)
    (h2 : s.preflopComboCount = some total) (h3 : s.reserveSize = some size) {r0 : Results} {flag : Nat} (h0 : startResults s = some (r0, flag))
    {k : Nat} {x : Call Local Results} (h : Call.Steps (exactDebugF s ds total size) nT cb (Call.init (Local.init s.nPlayers) r0 cancelled) k x)
    (hx : Call.Returns (exactDebugF s ds total size) nT x) : ∃ r, finishResultsCF s flag x.threads.results = some r := by
  obtain ⟨v', j, g1, g2, _, _, g5⟩ := h.returned (exactProgram_lawful _ _ _ _ _ _) hx
  obtain ⟨v, g3, g4⟩ := (exact_sim s ds total size).steps (u := (Call.init (Local.init s.nPlayers) r0 cancelled).threads.toPool)
    ⟨fun _ => ⟨_, HandsSame.refl _, rfl⟩, ResSame.refl _, rfl, rfl, rfl⟩ g1
  have hf := finish_some hwf hb hd hS hp h0 h1 h2 h3 (exactDebug_steps g3 : StepsC s ds total size nT (World.init s r0 cancelled) v.world)
    fun t ht => kind_done.1 (((exact_sim s ds total size).kind (g4.locals t)).trans (g5 t ht))
  have hi := finishResults_ints s flag g4.results
  have hf' : finishResultsC s flag v.results = some (finishResults s flag v.results) := hf
  rw [g2, hf'] at hi
  cases e : finishResultsCF s flag x.threads.results with
  | none => rw [e] at hi; cases hi
  | some r => exact ⟨r, rfl⟩

/-- C85: if all showdowns together weigh less than `2^64` the two builds cannot be told apart: the same ends, the same calls of the callback,
the same state of the token. -/
theorem C85_exact_same (hwf : ∀ r ∈ ranges, WfRange r) (hb : CardMask b) (hd : CardMask d) (hS : Small ranges b d) (hR : Room ranges b d)
    (e : Ended (Except SimulatorError Results)) :
    ExactDebugF ranges b d nT cancelled stopped cb e calls ↔ ExactRelease ranges b d nT cancelled stopped cb e calls := by
  unfold ExactDebugF ExactRelease
  cases hp : prepareExact ranges b d with
  | error err => exact Iff.rfl
  | ok s =>
    simp only
    obtain ⟨l1, l2, l3, l4⟩ := exact_lists hwf hp
    obtain ⟨ds, total, size, hr, hroom⟩ := ready_exists hwf hb hd hp (hR s hp)
    obtain ⟨hst, hsome⟩ := C68_start hwf hp
    obtain ⟨⟨r0, flag⟩, hst'⟩ := Option.isSome_iff_exists.1 hsome
    have h0 : startResults s = some (r0, flag) := hst.symm.trans hst'
    have hsame : ∀ k x, Call.Steps (exactDebugF s ds total size) nT cb (Call.init (Local.init s.nPlayers) r0 cancelled) k x ↔
        Call.Steps (exactRelease s ds total size) nT cb (Call.init (Local.init s.nPlayers) r0 cancelled) k x :=
      fun k x => (exact_below l4 ds total size).same fun j z hz => exactF_no_panic hr hS h0 hroom hz
    rw [hst', preflopComboCountR_eq hr.count]
    simp only
    constructor
    · rintro (⟨ds', total', size', k, x, h1, h2, h3, h4, h5, h8, h9⟩ | ⟨_, h, _⟩)
      · cases hr.dividers.symm.trans h1
        cases hr.count.symm.trans h2
        cases hr.batch.symm.trans h3
        refine ⟨r0, flag, ds, size, k, x, h0, h1, h3, (hsame k x).1 h4, ?_, h8, h9⟩
        cases e with
        | returned res =>
          obtain ⟨h5, r, h6, h7⟩ := h5
          exact ⟨h5, _, rfl, by rw [h7, finishResultsCF_sound l1 l2 l3 h6]⟩
        | panicked =>
          rcases h5 with h5 | ⟨h5, h6⟩
          · exact Or.inl h5
          · obtain ⟨r, h⟩ := exactF_finish hwf hb hd hS.toSmallDeals hp h1 h2 h3 h0 h4 h5
            cases h.symm.trans h6
      · rw [hr.dividers, hr.count, hr.batch] at h
        rcases h with h | h | h <;> cases h
    · rintro ⟨r0', flag', ds', size', k, x, h0', h1, h3, h4, h5, h8, h9⟩
      cases h0.symm.trans h0'
      cases hr.dividers.symm.trans h1
      cases hr.batch.symm.trans h3
      have h4' := (hsame k x).2 h4
      refine Or.inl ⟨ds, total, size, k, x, h1, hr.count, h3, h4', ?_, h8, h9⟩
      cases e with
      | returned res =>
        obtain ⟨h5, r, h6, h7⟩ := h5
        obtain ⟨r', h⟩ := exactF_finish hwf hb hd hS.toSmallDeals hp h1 hr.count h3 h0 h4' h5
        refine ⟨h5, r', h, ?_⟩
        rw [h7, ← Option.some.inj h6, finishResultsCF_sound l1 l2 l3 h]
      | panicked =>
        rcases h5 with h5 | ⟨h5, h6⟩
        · exact Or.inl h5
        · cases h6

theorem room_two (h2 : ranges.length = 2) (hr : ∀ r ∈ ranges, r.length ≤ 1326) : Room ranges b d := by
  refine room_of_prod ?_
  match ranges, h2, hr with
  | [x, y], _, hr =>
    have h1 := hr x (by simp)
    have h2 := hr y (by simp)
    have h3 : x.length * y.length ≤ 1326 * 1326 := Nat.mul_le_mul h1 h2
    simp only [List.map_cons, List.map_nil, List.prod_cons, List.prod_nil, Nat.mul_one]
    omega

/-- C85: two players: whatever the ranges, the board and the dead cards. -/
theorem C85_two_players (hwf : ∀ r ∈ ranges, WfRange r) (hb : CardMask b) (hd : CardMask d) (h2 : ranges.length = 2)
    (h100 : ∀ r ∈ ranges, ∀ c ∈ r, c.w ≤ 100) (hr : ∀ r ∈ ranges, r.length ≤ 1326) (e : Ended (Except SimulatorError Results)) :
    ExactDebugF ranges b d nT cancelled stopped cb e calls ↔ ExactRelease ranges b d nT cancelled stopped cb e calls :=
  C85_exact_same hwf hb hd (C51_two_players h2 h100 hr) (room_two h2 hr) e

/-- C85: and then a debug build panics only if the callback does. -/
theorem C85_no_panic (hwf : ∀ r ∈ ranges, WfRange r) (hb : CardMask b) (hd : CardMask d) (hS : Small ranges b d) (hR : Room ranges b d)
    (hcb : ∀ c m, cb c m ≠ none) : ¬ ExactDebugF ranges b d nT cancelled stopped cb .panicked calls :=
  fun h => C81_release_no_panic hwf hb hd hR hcb ((C85_exact_same hwf hb hd hS hR _).1 h)

/-- C85: every integer of a result of the debug build (wins by mask, number of evaluations, the counts in the tables) is that of a run of the
debug build with exact numbers, of which the callback has been called as often. -/
theorem C85_exact_integers {r' : Results} (h : ExactDebugF ranges b d nT cancelled stopped cb (.returned (.ok r')) calls) :
    ∃ r sent, ExactEquityD ranges b d nT cancelled stopped (.ok r) sent ∧ ResSame r r' ∧ sent.length = calls.length := by
  unfold ExactDebugF at h
  unfold ExactEquityD
  cases hp : prepareExact ranges b d with
  | error e => rw [hp] at h; cases h.1
  | ok s =>
    rw [hp] at h
    simp only at h ⊢
    split at h
    · cases h.1
    · rename_i r0 flag hst
      rcases h with ⟨ds, total, size, k, x, h1, h2, h3, h4, ⟨h5, r, h6, h7⟩, h8, h9⟩ | ⟨_, _, h, _⟩
      · obtain ⟨v', j, g1, g2, e3, e4, g5⟩ := h4.returned (exactProgram_lawful _ _ _ _ _ _) h5
        obtain ⟨v, g3, g4⟩ := (exact_sim s ds total size).steps (u := (Call.init (Local.init s.nPlayers) r0 cancelled).threads.toPool)
          ⟨fun _ => ⟨_, HandsSame.refl _, rfl⟩, ResSame.refl _, rfl, rfl, rfl⟩ g1
        have hi := finishResults_ints s flag g4.results
        rw [g2, h6] at hi
        cases h7
        cases hf : finishResultsC s flag v.results with
        | none => rw [hf] at hi; cases hi
        | some q =>
          rw [hf] at hi
          cases hi with
          | some hi =>
            refine ⟨q, v.sent, ⟨r0, flag, ds, total, size, v.world, q, hst, h1, h2, h3, exactDebug_steps g3,
              fun t ht => kind_done.1 (((exact_sim s ds total size).kind (g4.locals t)).trans (g5 t ht)), hf, rfl, rfl, ?_⟩, hi, ?_⟩
            · rw [h9, ← e4]; exact g4.stopped.symm
            · rw [h8, ← e3]; exact g4.sent
      · cases h

/-- C85: a call in a debug build always ends, after at most `64 * total + 72 * nT` steps. -/
theorem C85_ends {s : Sim} {ds : List DividerU64} {total size m : Nat} {r0 : Results} {k : Nat} {x : Call Local Results}
    (h : Call.Steps (exactDebugF s ds total size) nT cb (Call.init (Local.init m) r0 cancelled) k x) :
    k ≤ 64 * total + 72 * nT ∧ ((∀ y, ¬ Call.Step (exactDebugF s ds total size) nT cb x y) →
      Call.Returns (exactDebugF s ds total size) nT x ∨ Call.Panics (exactDebugF s ds total size) nT x) := by
  refine exact_ends (fun pos _ e he => ?_) h
  unfold fits at he
  split at he
  · cases he; omega
  · cases he

/-- C85: so there is an end for every input and callback. -/
theorem C85_exists (hwf : ∀ r ∈ ranges, WfRange r) (hT : 0 < nT) (cancelled : Bool) (cb : CallbackP) :
    ∃ e calls stopped, ExactDebugF ranges b d nT cancelled stopped cb e calls ∧ ((∀ c m, cb c m ≠ some true) → stopped = cancelled) := by
  unfold ExactDebugF
  cases hp : prepareExact ranges b d with
  | error e => exact ⟨_, _, cancelled, ⟨rfl, rfl⟩, fun _ => rfl⟩
  | ok s =>
    simp only
    obtain ⟨⟨r0, flag⟩, hst⟩ := Option.isSome_iff_exists.1 (C68_start hwf hp).2
    rw [hst]
    simp only
    cases h1 : s.fastDividers with
    | none => exact ⟨_, _, cancelled, Or.inr ⟨hT, Or.inl rfl, rfl, rfl⟩, fun _ => rfl⟩
    | some ds =>
    cases h2 : s.preflopComboCount with
    | none => exact ⟨_, _, cancelled, Or.inr ⟨hT, Or.inr (Or.inl rfl), rfl, rfl⟩, fun _ => rfl⟩
    | some total =>
    cases h3 : s.reserveSize with
    | none => exact ⟨_, _, cancelled, Or.inr ⟨hT, Or.inr (Or.inr rfl), rfl, rfl⟩, fun _ => rfl⟩
    | some size =>
      obtain ⟨k, x, g1, g2, g3⟩ := Call.Steps.stop (64 * total + 72 * nT) (fun k x h => (C85_ends h).1)
        (Call.Steps.refl (P := exactDebugF s ds total size) (nThreads := nT) (cb := cb) (x := Call.init (Local.init s.nPlayers) r0 cancelled))
      have hs : (∀ c m, cb c m ≠ some true) → x.threads.stopped = cancelled := g3 rfl
      rcases (C85_ends g1).2 g2 with hx | hx
      · cases hf : finishResultsCF s flag x.threads.results with
        | none => exact ⟨.panicked, _, _, Or.inl ⟨ds, total, size, k, x, rfl, rfl, rfl, g1, Or.inr ⟨hx, hf⟩, rfl, rfl⟩, hs⟩
        | some r => exact ⟨.returned (.ok r), _, _, Or.inl ⟨ds, total, size, k, x, rfl, rfl, rfl, g1, ⟨hx, r, hf, rfl⟩, rfl, rfl⟩, hs⟩
      · exact ⟨.panicked, _, _, Or.inl ⟨ds, total, size, k, x, rfl, rfl, rfl, g1, Or.inl hx, rfl, rfl⟩, hs⟩

/-- C85 (finding): seven or eight known hands of weight 100 before the flop: every end of a call in a debug build that is not cancelled is a
panic, and there is one for every callback that does not cancel.  In a release build the same call returns (C81). -/
theorem C85_seven_hands {cs : List Combo} (h : Hands cs) (h7 : cs.length = 7 ∨ cs.length = 8) (hT : 0 < nT) {s : Sim}
    (hok : prepareExact (cs.map fun c => [c]) 0 0 = .ok s) :
    (∀ e calls, ExactDebugF (cs.map fun c => [c]) 0 0 nT cancelled false cb e calls → e = .panicked) ∧
    ((∀ c m, cb c m ≠ some true) → ∃ calls, ExactDebugF (cs.map fun c => [c]) 0 0 nT false false cb .panicked calls) := by
  have key : ∀ cancelled e calls, ExactDebugF (cs.map fun c => [c]) 0 0 nT cancelled false cb e calls → e = .panicked := by
    intro cancelled e calls he
    match e, he with
    | .panicked, _ => rfl
    | .returned (.ok r), he =>
      obtain ⟨q, sent, g, _⟩ := C85_exact_integers he
      exact absurd ((C68_exact_stages h.ranges_wf zero_deck zero_deck (h.smallDeals (by omega)) _ _).1 g) (C51_seven_hands h h7 hT q sent)
    | .returned (.error err), he =>
      have hD := C85_exact_returned h.ranges_wf he
      have hD := C81_release_returned hD
      unfold ExactEquityR at hD; rw [hok] at hD
      simp at hD
  refine ⟨key cancelled, fun hcb => ?_⟩
  obtain ⟨e, calls, st, h1, h2⟩ := C85_exists (b := 0) (d := 0) h.ranges_wf hT false cb
  have h2 := h2 hcb
  subst h2
  have := key _ _ _ h1
  subst this
  exact ⟨calls, h1⟩

/-- Seven pairs and four threads. -/
example : (∃ calls, ExactDebugF (sevenHands.map fun c => [c]) 0 0 4 false false (fun _ _ => some false) .panicked calls) ∧
    ∀ e calls, ExactDebugF (sevenHands.map fun c => [c]) 0 0 4 false false (fun _ _ => some false) e calls → e = .panicked := by
  obtain ⟨s, hs⟩ := seven_prepared
  have := C85_seven_hands (nT := 4) (cancelled := false) (cb := fun _ _ => some false) seven_hands (Or.inl rfl) (by decide) hs
  exact ⟨this.2 fun _ _ => by decide, this.1⟩

/-- Two hands on the flop, two threads: a debug build returns, and what it returns a release build returns too. -/
example (cb : CallbackP) (hcb : ∀ c m, cb c m ≠ none) : ∃ r calls stopped,
    ExactDebugF twoHands flopMask 0 2 false stopped cb (.returned (.ok r)) calls ∧
    ExactRelease twoHands flopMask 0 2 false stopped cb (.returned (.ok r)) calls := by
  have hwf : ∀ r ∈ twoHands, WfRange r := by unfold WfRange twoHands; decide
  obtain ⟨e, calls, st, h1, _⟩ := C85_exists (b := flopMask) (d := 0) (nT := 2) hwf (by decide) false cb
  match e, h1 with
  | .panicked, h1 =>
    have := (C85_two_players hwf (by unfold CardMask; decide) zero_deck rfl (by decide) (by decide) _).1 h1
    exact absurd this (C81_release_no_panic hwf (by unfold CardMask; decide) zero_deck (room_two rfl (by decide)) hcb)
  | .returned (.ok r), h1 => exact ⟨r, calls, st, h1, C85_exact_returned hwf h1⟩
  | .returned (.error err), h1 =>
    obtain ⟨r, sent, h⟩ := two_run 2 false
    have hD := C81_release_returned (C85_exact_returned hwf h1)
    unfold ExactEquityR at hD
    unfold ExactEquity at h
    cases hp : prepareExact twoHands flopMask 0 with
    | error e => rw [hp] at h; cases h.1
    | ok s => rw [hp] at hD; simp at hD

/-! ## The random simulation -/

variable {target : ℚ}

/-- C85: whatever `approx_equity` returns in a debug build, it can also return in a release build: the same results, to the last bit, with the
same calls of the callback, whatever the sizes, weights, targets and numbers of threads. -/
theorem C85_approx_returned (hwf : ∀ r ∈ ranges, WfRange r) (hb : CardMask b) (hd : CardMask d) {res : Except SimulatorError Results}
    (h : ApproxDebugF ranges b d nT target cancelled cb (.returned res) calls) :
    ApproxRelease ranges b d nT target cancelled cb (.returned res) calls := by
  obtain ⟨p, hp, h⟩ := h
  refine ⟨p, hp, ?_⟩
  cases p with
  | error e => exact h
  | ok s =>
    have hr : McReady ranges b d s := ⟨hwf, hb, hd, hp⟩
    obtain ⟨l1, l2, l3⟩ := hr.lists
    simp only at h ⊢
    rw [startResultsC_eq l1 l2 l3] at h
    split at h
    · cases h.1
    · rename_i r0 flag hst
      obtain ⟨k, x, h4, ⟨h5, r, h6, h7⟩, h8⟩ := h
      obtain ⟨g1, g2⟩ := (approx_below hr.fields.2.2.2.2.1 target).returns h4 h5
      refine ⟨r0, flag, k, x, hst, g1, ⟨g2, _, rfl, ?_⟩, h8⟩
      rw [h7, finishResultsCF_sound l1 l2 l3 h6]

theorem approxF_finish {s : Sim} (hr : McReady ranges b d s) (hw : ∀ r ∈ ranges, ∀ c ∈ r, c.w ≤ 255) {r0 : Results} {flag : Nat}
    (h0 : startResults s = some (r0, flag)) {k : Nat} {x : Call McLocal Results}
    (h : Call.Steps (approxDebugF target s) nT cb (Call.init (McLocal.init s.nPlayers) r0 cancelled) k x)
    (hx : Call.Returns (approxDebugF target s) nT x) :
    ∃ r v w, finishResultsCF s flag x.threads.results = some r ∧ finishResultsC s flag v.results = some w ∧ ResSame w r ∧
      McStepsC (fun _ => 0) 0 s nT (McWorld.init s r0 cancelled) (Pool.mcWorld v) ∧ (∀ t < nT, (v.locals t).pc = .done) ∧
      v.sent.length = x.calls.length := by
  obtain ⟨v', j, g1, g2, e3, _, g5⟩ := h.returned (approxProgram_lawful _ _ _ _ _) hx
  obtain ⟨v, g3, g4⟩ := (approx_sim target s).steps (u := (Call.init (McLocal.init s.nPlayers) r0 cancelled).threads.toPool)
    ⟨fun _ => ⟨_, HandsSame.refl _, rfl⟩, ⟨ResSame.refl _, startResults_stdev h0⟩, rfl, rfl, rfl⟩ g1
  have hdone : ∀ t < nT, (v.mcWorld.locals t).pc = .done := fun t ht =>
    mcKind_done.1 (((approx_sim target s).kind (g4.locals t)).trans (g5 t ht))
  have hf : finishResultsC s flag v.results = some (finishResults s flag v.results) :=
    mc_finish_some hr hw h0 (approxDebug_steps g3 : McStepsC (fun _ => 0) 0 s nT (McWorld.init s r0 cancelled) v.mcWorld) hdone
  have hi := finishResults_ints s flag g4.results.1
  rw [g2, hf] at hi
  cases e : finishResultsCF s flag x.threads.results with
  | none => rw [e] at hi; cases hi
  | some r =>
    rw [e] at hi
    cases hi with
    | some hi => exact ⟨r, v, _, rfl, hf, hi, approxDebug_steps g3, hdone, by rw [← e3]; exact g4.sent⟩

/-- C85: if the evaluations (4096 for each message above one per thread), plus one, times `100` for each player are below `2^64`, the two
builds return the same, with every callback that does not panic. -/
theorem C85_approx_same (hwf : ∀ r ∈ ranges, WfRange r) (hb : CardMask b) (hd : CardMask d) (h100 : ∀ r ∈ ranges, ∀ c ∈ r, c.w ≤ 100)
    (hcb : ∀ c m, cb c m ≠ none) (hroom : (4096 * (calls.length - nT) + 1) * 100 ^ ranges.length < 2 ^ 64) (res : Except SimulatorError Results) :
    ApproxDebugF ranges b d nT target cancelled cb (.returned res) calls ↔
    ApproxRelease ranges b d nT target cancelled cb (.returned res) calls := by
  refine ⟨C85_approx_returned hwf hb hd, ?_⟩
  rintro ⟨p, hp, h⟩
  refine ⟨p, hp, ?_⟩
  cases p with
  | error e => exact h
  | ok s =>
    have hr : McReady ranges b d s := ⟨hwf, hb, hd, hp⟩
    obtain ⟨l1, l2, l3⟩ := hr.lists
    simp only at h ⊢
    rw [startResultsC_eq l1 l2 l3]
    obtain ⟨r0, flag, k, x, hst, h4, ⟨h5, r, h6, h7⟩, h8⟩ := h
    rw [hst]
    simp only
    obtain ⟨v, j, g1, g2, g3, g4, g5⟩ := h4.returned (approxProgram_lawful _ _ _ _ _) h5
    obtain ⟨w, e1, e2, e3⟩ := release_debug hr h100 hst g1
    have hdone : ∀ t < nT, (w.locals t).pc = .done := fun t ht => by rw [← (e2.locals t).pc]; exact mcKind_done.1 (g5 t ht)
    have hlen : v.sent.length = w.shared.sent.length := e2.shared.sent
    rw [h8, ← g3, hlen, ← done_evals hr hst e1 hdone] at hroom
    obtain ⟨k', x', q1, q2, q3, q4, _⟩ := Program.Steps.call (approxProgram_lawful _ _ _ _ _) hcb (e3 hroom) g5
    obtain ⟨r', _, _, f1, _⟩ := approxF_finish hr (fun r hr c hc => (h100 r hr c hc).trans (by decide)) hst q1 q2
    refine ⟨k', x', q1, ⟨q2, r', f1, ?_⟩, by rw [h8, q4, g3]⟩
    rw [h7, ← Option.some.inj h6, finishResultsCF_sound l1 l2 l3 f1, q3, g2]

/-- C85: two players: up to 450 thousand million batches. -/
theorem C85_approx_two_players (hwf : ∀ r ∈ ranges, WfRange r) (hb : CardMask b) (hd : CardMask d) (h100 : ∀ r ∈ ranges, ∀ c ∈ r, c.w ≤ 100)
    (h2 : ranges.length = 2) (hcb : ∀ c m, cb c m ≠ none) (hroom : calls.length - nT ≤ 450000000000) (res : Except SimulatorError Results) :
    ApproxDebugF ranges b d nT target cancelled cb (.returned res) calls ↔
    ApproxRelease ranges b d nT target cancelled cb (.returned res) calls := by
  refine C85_approx_same hwf hb hd h100 hcb ?_ res
  rw [h2]
  omega

/-- C85: the simulation panics only when the callback does, or when the counters may overflow: not as long as the number of evaluations, plus
one, times `100` for each player is below `2^64` in a run. -/
theorem C85_approx_no_panic (hwf : ∀ r ∈ ranges, WfRange r) (hb : CardMask b) (hd : CardMask d) (h100 : ∀ r ∈ ranges, ∀ c ∈ r, c.w ≤ 100)
    (hcb : ∀ c m, cb c m ≠ none) (h : ApproxDebugF ranges b d nT target cancelled cb .panicked calls) :
    ∃ s r0 flag w, PrepareApprox ranges b d (.ok s) ∧ startResults s = some (r0, flag) ∧
      McStepsC (fun _ => 0) 0 s nT (McWorld.init s r0 cancelled) w ∧ 2 ^ 64 ≤ (w.evals nT + 1) * 100 ^ ranges.length := by
  obtain ⟨p, hp, h⟩ := h
  cases p with
  | error e => cases h.1
  | ok s =>
    simp only at h
    have hr : McReady ranges b d s := ⟨hwf, hb, hd, hp⟩
    obtain ⟨l1, l2, l3⟩ := hr.lists
    obtain ⟨r0, flag, hst⟩ := start_some_of (d := d) hwf (s := s) hr.fields.2.1 hr.fields.2.2.2.2.2.2.2.2.2 hr.hands
    rw [startResultsC_eq l1 l2 l3, hst] at h
    simp only at h
    obtain ⟨k, x, h4, h5, _⟩ := h
    refine ⟨s, r0, flag, ?_⟩
    rcases h5 with ⟨_, h5 | ⟨_, h5⟩⟩ | ⟨h5, h6⟩
    · rw [h4.total hcb] at h5; cases h5
    · obtain ⟨v', j, g1, t, ht, g2⟩ := h4.root (approxProgram_lawful _ _ _ _ _) h5
      obtain ⟨v, g3, g4⟩ := (approx_sim target s).steps (u := (Call.init (McLocal.init s.nPlayers) r0 cancelled).threads.toPool)
        ⟨fun _ => ⟨_, HandsSame.refl _, rfl⟩, ⟨ResSame.refl _, startResults_stdev hst⟩, rfl, rfl, rfl⟩ g1
      refine ⟨v.mcWorld, hp, hst, approxDebug_steps g3, ?_⟩
      by_contra hn
      exact C59_no_panic hr h100 hst (approxDebug_steps g3 : McStepsC (fun _ => 0) 0 s nT (McWorld.init s r0 cancelled) v.mcWorld) (by omega) ht
        (mcKind_panicked.1 (((approx_sim target s).kind (g4.locals t)).trans g2))
    · obtain ⟨r', _, _, f1, _⟩ := approxF_finish hr (fun r hr c hc => (h100 r hr c hc).trans (by decide)) hst h4 h5
      cases f1.symm.trans h6

/-- C85: every integer of a result of the simulation is that of a run of the debug build with exact numbers. -/
theorem C85_approx_integers (hwf : ∀ r ∈ ranges, WfRange r) (hb : CardMask b) (hd : CardMask d) (hw : ∀ r ∈ ranges, ∀ c ∈ r, c.w ≤ 255)
    {r' : Results} (h : ApproxDebugF ranges b d nT target cancelled cb (.returned (.ok r')) calls) :
    ∃ r sent, ApproxEquityD (fun _ => 0) ranges b d nT 0 cancelled (.ok r) sent ∧ ResSame r r' ∧ sent.length = calls.length := by
  obtain ⟨p, hp, h⟩ := h
  cases p with
  | error e => cases h.1
  | ok s =>
    simp only at h
    have hr : McReady ranges b d s := ⟨hwf, hb, hd, hp⟩
    obtain ⟨l1, l2, l3⟩ := hr.lists
    split at h
    · cases h.1
    · rename_i r0 flag hst
      obtain ⟨k, x, h4, ⟨h5, r, h6, h7⟩, h8⟩ := h
      obtain ⟨r1, v, w, f1, f2, f3, f4, f5, f6⟩ := approxF_finish hr hw ((startResultsC_eq l1 l2 l3).symm.trans hst) h4 h5
      cases h7
      cases f1.symm.trans h6
      exact ⟨w, v.sent, ⟨_, hp, r0, flag, v.mcWorld, w, hst, f4, f5, f2, rfl, rfl⟩, f3, by rw [h8, f6]⟩

/-- C85: the simulation is never in a deadlock. -/
theorem C85_approx_ends {s : Sim} (hr : McReady ranges b d s) {m : Nat} {r0 : Results} {k : Nat} {x : Call McLocal Results}
    (h : Call.Steps (approxDebugF target s) nT cb (Call.init (McLocal.init m) r0 cancelled) k x)
    (hstuck : ∀ y, ¬ Call.Step (approxDebugF target s) nT cb x y) :
    Call.Returns (approxDebugF target s) nT x ∨ Call.Panics (approxDebugF target s) nT x := by
  refine h.ended (approxProgram_lawful _ _ _ _ _) (fun u hu _ hk => ?_) hstuck
  obtain ⟨j, h1⟩ := h.moves
  have hf := approx_fine (fun l l' g g' ds hl hk hs => hl.stepCF hr hk hs) (fun t => WalkFine.init b d s m) h1 u
  obtain ⟨ds, l', hs⟩ := hf.liveCF hr hk ⟨r0, x.threads.stopped, []⟩
  exact ⟨l', _, ds, _, rfl, hs⟩

/-- C85: once it has been cancelled it ends after a bounded number of steps. -/
theorem C85_approx_cancelled {s : Sim} {m : Nat} {r0 : Results} {i k : Nat} {x y : Call McLocal Results}
    (hx : Call.Steps (approxDebugF target s) nT cb (Call.init (McLocal.init m) r0 cancelled) i x) (hs : x.threads.stopped = true)
    (hy : Call.Steps (approxDebugF target s) nT cb x k y) : k ≤ 164000 * nT + (x.threads.sent.length - x.calls.length) :=
  cancelled_call (fun _ _ _ _ _ hk hg hs => mcStepCF_measure hk hg hs) hx hs hy

/-- C85: so it can come to an end, for every callback. -/
theorem C85_approx_exists (hwf : ∀ r ∈ ranges, WfRange r) (hb : CardMask b) (hd : CardMask d) (cb : CallbackP) :
    ∃ e calls, ApproxDebugF ranges b d nT target cancelled cb e calls := by
  cases hp : prepareExact ranges b d with
  | error e => exact ⟨_, _, _, C39_approx.2 hp, rfl, rfl⟩
  | ok s0 =>
    obtain ⟨s, hs⟩ := C39_approx_ok hp
    have hr : McReady ranges b d s := ⟨hwf, hb, hd, hs⟩
    cases h0 : startResultsC s with
    | none => exact ⟨.panicked, [], _, hs, by simp only [h0, and_self]⟩
    | some x =>
      obtain ⟨r0, flag⟩ := x
      obtain ⟨k, x, g1, g2, _⟩ := Call.Steps.stop (164000 * nT + 0)
        (fun k y h => C85_approx_cancelled (target := target) (s := s) (cb := cb) (x := Call.init (McLocal.init s.nPlayers) r0 true)
          (cancelled := true) .refl rfl h) .refl
      rcases C85_approx_ends hr g1 g2 with hx | hx
      · cases hf : finishResultsCF s flag x.threads.results with
        | none => exact ⟨.panicked, _, _, hs, by simp only [h0]; exact ⟨k, x, g1.ofCancelled, Or.inr ⟨hx, hf⟩, rfl⟩⟩
        | some r => exact ⟨.returned (.ok r), _, _, hs, by simp only [h0]; exact ⟨k, x, g1.ofCancelled, ⟨hx, r, hf, rfl⟩, rfl⟩⟩
      · exact ⟨.panicked, _, _, hs, by simp only [h0]; exact ⟨k, x, g1.ofCancelled, Or.inl hx, rfl⟩⟩

/-- C85 (finding): known hands of weight 100: if the first batches of all threads together weigh `2^64` or more, which is so for eight or nine
players with any number of threads and for seven players with 46 threads, every end of a simulation in a debug build is a panic, and there
is one. -/
theorem C85_known_hands {cs : List Combo} (h : Hands cs) (h0 : 0 < cs.length) (hb : CardMask b) (hd : CardMask d)
    (hne : deals (specRanges (cs.map fun c => [c])) (maskCards b ++ maskCards d) ≠ []) (hT : 2 ^ 64 ≤ 4096 * nT * 100 ^ cs.length)
    {s : Sim} (hok : prepareExact (cs.map fun c => [c]) b d = .ok s) :
    (∀ e calls, ApproxDebugF (cs.map fun c => [c]) b d nT target cancelled cb e calls → e = .panicked) ∧
    ∃ calls, ApproxDebugF (cs.map fun c => [c]) b d nT target cancelled cb .panicked calls := by
  have hall : ∀ e calls, ApproxDebugF (cs.map fun c => [c]) b d nT target cancelled cb e calls → e = .panicked := by
    intro e calls he
    match e, he with
    | .panicked, _ => rfl
    | .returned (.ok r), he =>
      obtain ⟨q, sent, g, _⟩ := C85_approx_integers h.ranges_wf hb hd (fun r hr c hc => by
        obtain ⟨k, hk, rfl⟩ := List.mem_map.1 hr
        rw [List.mem_singleton] at hc
        subst hc
        rw [h.full c hk]
        decide) he
      exact absurd (C81_approx_debug_all (cb := fun _ _ => some false) (fun _ _ => by decide) g) (C81_known_hands h h0 hb hd hne hT q)
    | .returned (.error err), he =>
      obtain ⟨p, hp, he⟩ := he
      cases p with
      | error err' => rw [C39_approx] at hp; rw [hok] at hp; cases hp
      | ok s' =>
        simp only at he
        split at he
        · cases he.1
        · obtain ⟨_, _, _, ⟨_, _, _, h⟩, _⟩ := he
          cases h
  obtain ⟨e, calls, he⟩ := C85_approx_exists (nT := nT) (target := target) (cancelled := cancelled) h.ranges_wf hb hd cb
  have := hall e calls he
  subst this
  exact ⟨hall, calls, he⟩

/-- Eight pairs before the flop and a single thread. -/
example (target : ℚ) (cb : CallbackP) :
    (∀ e calls, ApproxDebugF (eightHands.map fun c => [c]) 0 0 1 target false cb e calls → e = .panicked) ∧
    ∃ calls, ApproxDebugF (eightHands.map fun c => [c]) 0 0 1 target false cb .panicked calls := by
  have hok : prepareExact (eightHands.map fun c => [c]) 0 0 =
      .ok (Sim.new ((eightHands.map fun c => [c]).map fun h => removeConflictingCombos h 0 0)
        (CombinedRange.fromRanges ((eightHands.map fun c => [c]).map fun h => removeConflictingCombos h 0 0)) 0 0 true) := by
    unfold prepareExact
    rw [show validate (List.length _) _ 0 = none by decide +kernel]
    show (if _ then _ else _) = _
    rw [if_neg (by decide +kernel)]
  exact C85_known_hands ⟨by unfold WfRange eightHands sevenHands; decide, by decide, by decide⟩ (by decide) zero_deck zero_deck (by decide +kernel)
    (by decide) hok

/-- Two hands on the flop, three threads, a target of one percent: both builds can return the same result, after 12288 evaluations. -/
example (cb : CallbackP) (hcb : ∀ c m, cb c m ≠ none) : ∃ r calls, r.evalCount = 12288 ∧
    ApproxDebugF twoHands flopMask 0 3 (1 / 100) false cb (.returned (.ok r)) calls ∧
    ApproxRelease twoHands flopMask 0 3 (1 / 100) false cb (.returned (.ok r)) calls := by
  obtain ⟨s, hs⟩ := two_ready
  obtain ⟨r, sent, h⟩ := two_approxF (prog := progF (1 / 100)) (T := 1 / 100) (nT := 3) (by norm_num) (by norm_num)
  obtain ⟨h1, h2⟩ := C70_one_batch hs.wf hs.boardMask hs.deadMask two_single (by norm_num) h
  have h100 : ∀ r ∈ twoHands, ∀ c ∈ r, c.w ≤ 100 := by unfold twoHands; decide
  have hE := C81_approx_release_all hcb ((C78_two_players hs.wf hs.boardMask hs.deadMask h100 rfl (by omega)).2 h)
  exact ⟨r, sent, h1, (C85_approx_two_players hs.wf hs.boardMask hs.deadMask h100 rfl hcb (by omega) _).2 hE, hE⟩

/-! ## Whole programs -/

variable {lower : List Char → List Char} {texts : List (List Char)} {boardText deadText : List Char} {Rs : List (List WHand)} {board dead : List Nat}

theorem cardMaskLoop_deck : ∀ (l : List Char) (m : Nat), DeckMask m → DeckMask (cardMaskLoop l m)
  | [], m, h => by unfold cardMaskLoop; exact h
  | [_], m, h => by unfold cardMaskLoop; exact h
  | r :: s :: rest, m, h => by
    unfold cardMaskLoop
    simp only
    split
    · unfold DeckMask; decide
    · rename_i hn
      refine cardMaskLoop_deck rest _ (Nat.or_lt_two_pow h ?_)
      have h1 := charToRank_cases r
      have h2 := charToSuit_cases s
      rw [Nat.one_shiftLeft]
      exact Nat.pow_lt_pow_right (by decide) (by omega)

theorem getCardMask_deck (lower : List Char → List Char) (text : List Char) : DeckMask (getCardMask lower text) := by
  unfold getCardMask
  simp only
  split
  · unfold DeckMask; decide
  · exact cardMaskLoop_deck _ _ (by unfold DeckMask; decide)

theorem read_ranges (h : fromStrings lower texts = .ok ranges) :
    (∀ r ∈ ranges, WfRange r) ∧ (∀ r ∈ ranges, ∀ c ∈ r, c.w ≤ 100) ∧ (∀ r ∈ ranges, r.length ≤ 1326) ∧ ranges.length = texts.length := by
  have hf : List.Forall₂ (fun t r => fromString lower t = .ok r) texts ranges := by
    unfold fromStrings at h
    induction texts generalizing ranges with
    | nil => cases h; exact .nil
    | cons t ts ih =>
      rw [List.mapM_cons] at h
      cases ht : fromString lower t with
      | error p => rw [ht] at h; cases h
      | ok r =>
        cases hts : ts.mapM (fromString lower) with
        | error p => rw [ht, hts] at h; cases h
        | ok rs => rw [ht, hts] at h; cases h; exact .cons ht (ih hts)
  have hx : ∀ r ∈ ranges, ∃ t, fromString lower t = .ok r := by
    intro r hr
    obtain ⟨i, hi, rfl⟩ := List.mem_iff_getElem.1 hr
    have := (List.forall₂_iff_get.1 hf).2 i (by rw [hf.length_eq]; exact hi) hi
    exact ⟨_, this⟩
  refine ⟨fun r hr c hc => ?_, fun r hr c hc => ?_, fun r hr => ?_, hf.length_eq.symm⟩
  · obtain ⟨t, ht⟩ := hx r hr
    have := C18_wellformed ht hc
    omega
  · obtain ⟨t, ht⟩ := hx r hr
    exact (C18_wellformed ht hc).2.2
  · obtain ⟨t, ht⟩ := hx r hr
    refine length_le_1326 (C19_nodup ht) fun c hc => ?_
    have := C18_wellformed ht hc
    omega

/-- C85: whatever a program returns in a debug build it can return in a release build, for all texts of ranges and cards, all numbers of
threads and all callbacks. -/
theorem C85_whole_returned {res : Except SimulatorError Results}
    (h : WholeDebugF lower texts boardText deadText nT cancelled stopped cb (.returned res) calls) :
    WholeRelease lower texts boardText deadText nT cancelled stopped cb (.returned res) calls := by
  unfold WholeDebugF at h
  unfold WholeRelease
  split at h
  · cases h.1
  · rename_i ranges hr
    rw [texts_same hr]
    exact C85_exact_returned (read_ranges hr).1 h

/-- C85: the same with `approx_equity`. -/
theorem C85_whole_approx_returned {res : Except SimulatorError Results}
    (h : WholeApproxDebugF lower texts boardText deadText nT target cancelled cb (.returned res) calls) :
    WholeApproxRelease lower texts boardText deadText nT target cancelled cb (.returned res) calls := by
  unfold WholeApproxDebugF at h
  unfold WholeApproxRelease
  split at h
  · cases h.1
  · rename_i ranges hr
    rw [texts_same hr]
    exact C85_approx_returned (read_ranges hr).1 (getCardMask_deck _ _).mask (getCardMask_deck _ _).mask h

/-- C85: two texts of ranges that a debug build reads without a panic: from there on the builds cannot be told apart. -/
theorem C85_whole_two (h2 : texts.length = 2) (hr : fromStrings lower texts = .ok ranges) (e : Ended (Except SimulatorError Results)) :
    WholeDebugF lower texts boardText deadText nT cancelled stopped cb e calls ↔
    WholeRelease lower texts boardText deadText nT cancelled stopped cb e calls := by
  unfold WholeDebugF WholeRelease
  rw [hr, texts_same hr]
  obtain ⟨h1, h3, h4, h5⟩ := read_ranges hr
  exact C85_two_players h1 (getCardMask_deck _ _).mask (getCardMask_deck _ _).mask (h5.trans h2) h3 h4 e

/-- C85: a problem within the limits of C83: the builds cannot be told apart, so that `C83_release` describes both. -/
theorem C85_whole_same (h : Problem lower texts boardText deadText Rs board dead) (hp : Playable Rs board dead)
    (e : Ended (Except SimulatorError Results)) :
    WholeDebugF lower texts boardText deadText nT cancelled stopped cb e calls ↔
    WholeRelease lower texts boardText deadText nT cancelled stopped cb e calls := by
  obtain ⟨ranges, hq⟩ := h.parsed
  unfold WholeDebugF WholeRelease
  rw [hq.ok, texts_same hq.ok]
  exact C85_exact_same hq.wf hq.deck.1.mask hq.deck.2.mask (hq.small hp) (hq.room hp) e

/-- C85: the whole program in a debug build with its `f64` numbers, for a problem within the limits and a callback that does not panic: it
ends for every number of threads, every end is the return of a result, and the equities are the `f64` numbers nearest to those of the
problem if all the showdowns weigh at most `2 ^ 53` together, and else differ from them by at most `n + 4` roundings if no player's shares
weigh more than `2 ^ 53`. -/
theorem C85_whole_equities (h : Problem lower texts boardText deadText Rs board dead) (hp : Playable Rs board dead) (hT : 0 < nT)
    (hcb : ∀ c m, cb c m ≠ none) :
    (∀ cancelled, ∃ e calls stopped, WholeDebugF lower texts boardText deadText nT cancelled stopped cb e calls ∧
      ((∀ c m, cb c m = some false) → stopped = cancelled)) ∧
    ∀ cancelled stopped e calls, WholeDebugF lower texts boardText deadText nT cancelled stopped cb e calls →
      ∃ r, e = .returned (.ok r) ∧ (stopped = false →
        (totalWeight (showdowns Rs board dead) ≤ 2 ^ 53 → r.equities = (List.range Rs.length).map fun p => (equityOf Rs board dead p).map fl) ∧
        ((∀ p < Rs.length, sharesOf (showdowns Rs board dead) p ≤ 2 ^ 53) → ∀ p < Rs.length, ∀ a, equityOf Rs board dead p = some a →
          ∃ f, r.equities[p]? = some (some f) ∧ |f - a| ≤ (Rs.length + 4) / 2 ^ 52 * a)) := by
  obtain ⟨g1, g2⟩ := C83_release (nT := nT) (cb := cb) h hp hT hcb
  refine ⟨fun c => ?_, fun c st e calls hE => g2 c st e calls ((C85_whole_same h hp e).1 hE)⟩
  obtain ⟨e, calls, st, k1, k2⟩ := g1 c
  exact ⟨e, calls, st, (C85_whole_same h hp e).2 k1, k2⟩

/-- C85 on the crate's `test_accuracy` (src/equity_calculator/simulator.rs), in a debug build, which is how `cargo test` runs it: with any
number of threads and any callback that does not panic or cancel, there is an end, and every end is the return of the number the test
expects, to the last bit. -/
theorem C85_accuracy (hT : 0 < nT) (hcb : ∀ c m, cb c m = some false) :
    (∃ e calls, WholeDebugF asciiLower ["AA".toList, "random".toList] "KdKsKh3s".toList "".toList nT false false cb e calls) ∧
    ∀ e calls, WholeDebugF asciiLower ["AA".toList, "random".toList] "KdKsKh3s".toList "".toList nT false false cb e calls →
      ∃ r, e = .returned (.ok r) ∧ r.equities[0]? = some (some (fl 0.9550285463328941)) := by
  obtain ⟨g1, g2⟩ := C83_accuracy (nT := nT) (cb := cb) hT hcb
  obtain ⟨ranges, hq⟩ := accuracy_problem.parsed
  have hok := hq.ok
  clear hq
  generalize ht : ["AA".toList, "random".toList] = texts at *
  have h2 : texts.length = 2 := by rw [← ht]; rfl
  clear ht
  generalize "KdKsKh3s".toList = bt at *
  generalize "".toList = dt at *
  refine ⟨?_, fun e calls hE => g2 e calls ((C85_whole_two h2 hok e).1 hE)⟩
  obtain ⟨e, calls, h⟩ := g1
  exact ⟨e, calls, (C85_whole_two h2 hok e).2 h⟩

end
end Pokers
