import Verif.Proofs.ChanceDeal
import Verif.Proofs.McChoice
import Verif.Proofs.Space
import Verif.Props.SampleSpace
/-!
The probabilities of the batches of the random simulation.
-/
namespace Pokers

open Spec
open scoped ENNReal

variable {α β : Type}

/-! ## Averages -/

theorem average_const {l : List α} (h : l ≠ []) (c : ℝ≥0∞) : average l (fun _ => c) = c := by
  unfold average
  rw [List.map_const', List.sum_replicate, nsmul_eq_mul, ← mul_assoc, ENNReal.inv_mul_cancel, one_mul]
  · exact_mod_cast (List.length_pos_iff.2 h).ne'
  · exact ENNReal.natCast_ne_top _

theorem sum_map_comm (l : List α) (k : List β) (f : α → β → ℝ≥0∞) :
    (l.map fun x => (k.map fun y => f x y).sum).sum = (k.map fun y => (l.map fun x => f x y).sum).sum := by
  induction l with
  | nil => simp
  | cons x l ih =>
    simp only [List.map_cons, List.sum_cons]
    rw [ih, ← List.sum_map_add]

theorem average_comm (l : List α) (k : List β) (f : α → β → ℝ≥0∞) :
    (average l fun x => average k fun y => f x y) = average k fun y => average l fun x => f x y := by
  unfold average
  rw [List.sum_map_mul_left, List.sum_map_mul_left, sum_map_comm, ← mul_assoc, ← mul_assoc, mul_comm (l.length : ℝ≥0∞)⁻¹]

theorem average_perm {l l' : List α} (h : l.Perm l') (f : α → ℝ≥0∞) : average l f = average l' f := by
  unfold average
  rw [h.length_eq, (h.map f).sum_eq]

theorem average_bind (l : List α) {n : Nat} {g : α → List β} (h : ∀ x ∈ l, (g x).length = n) (f : β → ℝ≥0∞) :
    average (l.flatMap g) f = average l fun x => average (g x) f := by
  have h1 : (l.flatMap g).length = l.length * n := by
    rw [List.length_flatMap, List.map_congr_left h, List.map_const', List.sum_replicate, smul_eq_mul]
  have h2 : ((l.flatMap g).map f).sum = (l.map fun x => ((g x).map f).sum).sum := by
    clear h h1
    induction l with
    | nil => rfl
    | cons x l ih => rw [List.flatMap_cons, List.map_append, List.sum_append, ih, List.map_cons, List.sum_cons]
  have h3 : average l (fun x => average (g x) f) = average l fun x => (n : ℝ≥0∞)⁻¹ * ((g x).map f).sum :=
    average_congr fun x hx => by unfold average; rw [h x hx]
  rw [h3]
  unfold average
  rw [h1, h2, List.sum_map_mul_left, ← mul_assoc, Nat.cast_mul,
    ENNReal.mul_inv (Or.inr (ENNReal.natCast_ne_top _)) (Or.inl (ENNReal.natCast_ne_top _))]

theorem average_choices (r : List α) (rs : List (List α)) (f : List α → ℝ≥0∞) :
    average (choices (r :: rs)) f = average r fun h => average (choices rs) fun t => f (h :: t) := by
  show average (r.flatMap fun h => (choices rs).map (h :: ·)) f = _
  rw [average_bind r (n := (choices rs).length) (fun x _ => List.length_map _)]
  exact average_congr fun x _ => average_map _ _ _

theorem average_outcomes (board dead : List Nat) (dd : List WHand) (ds : List (List WHand)) (f : List (List WHand × List Nat) → ℝ≥0∞) :
    average (outcomes board dead (dd :: ds)) f =
      average (boards board dead dd) fun B => average (outcomes board dead ds) fun sd => f ((dd, B) :: sd) := by
  unfold outcomes
  rw [List.map_cons, average_choices, average_map]

/-! ## A thread by itself -/

section
variable {sqrt : ℚ → ℚ} {target : ℚ} {ranges : List (List Combo)} {b d : Nat} {s : Sim}

/-- The thread has dealt the hands with the indexes `x`. -/
structure Stands (s : Sim) (b d : Nat) (x : List Nat) (w : Walk) : Prop where
  ok : ∃ picks, WalkOk s.combinedRanges (b ||| d) w picks
  outside : Outside s.combinedRanges w
  points : Points w x
  length : x.length = s.combinedRanges.length

/-- The thread after the evaluation of a board. -/
def evaluated (s : Sim) (l : McLocal) (board : Hand) : McLocal :=
  let st := evaluateHands s.nPlayers l.walk.hands l.walk.weight board l.walk.lookup true (l.stats, l.hands)
  { l with stats := st.1, hands := st.2 }

/-- A step of evaluation. -/
theorem McReady.step_eval (h : McReady ranges b d s) {l : McLocal} (g : McShared) (hpc : l.pc = .eval) : mcStep sqrt target s l g =
    bindD (randomizeBoard (5 - (maskCards b).length) (l.walk.used ||| s.deadMask) (ofCards (maskCards b))) fun board =>
      retD ({ evaluated s l board with pc := if (evaluated s l board).stats.evalCount &&& 0xfff = 0 then .flush else .move }, g) := by
  funext ds
  obtain ⟨h1, h2, h3, h4, _, _, _, h5, _, h6⟩ := h.fields
  have hcount : s.fixedBoard.count = (maskCards b).length := by rw [h4, ← fixedBoard_eq, fixedBoard_count h5]
  have hsub : subC 5 s.fixedBoard.count = some (5 - (maskCards b).length) := by
    unfold subC; rw [hcount, if_pos h6]
  have e : Pokers.evalDeal s l ds = match randomizeBoard (5 - (maskCards b).length) (l.walk.used ||| s.deadMask) (ofCards (maskCards b)) ds with
      | .ok board ds => .ok (evaluated s l board) ds
      | .more => .more
      | .panic => .panic := by
    unfold Pokers.evalDeal
    rw [hsub, h4]
    rfl
  unfold mcStep bindD
  rw [hpc]
  simp only [e]
  have hnp := randomizeBoard_no_panic (5 - (maskCards b).length) (l.walk.used ||| s.deadMask) (ofCards (maskCards b)) ds
  cases hr : randomizeBoard (5 - (maskCards b).length) (l.walk.used ||| s.deadMask) (ofCards (maskCards b)) ds with
  | ok board rest => rfl
  | more => rfl
  | panic => exact absurd hr hnp

/-- The thread after a move of the combined range `i`. -/
def moved (s : Sim) (l : McLocal) (i : Nat) : McLocal :=
  match s.combinedRanges[i]? with
  | none => { l with pc := .panicked }
  | some cr =>
    match redeal cr i l.walk with
    | none => { l with pc := .panicked }
    | some w => { l with walk := w, pc := .eval }

theorem step_move {l : McLocal} (g : McShared) (hpc : l.pc = .move) : mcStep sqrt target s l g =
    bindD (sample s.combinedRanges.length) fun i => retD (moved s l i, g) := by
  funext ds
  unfold mcStep bindD
  rw [hpc]
  simp only
  cases hr : sample s.combinedRanges.length ds with
  | ok i rest =>
    simp only [retD, moved]
    cases s.combinedRanges[i]? with
    | none => rfl
    | some cr =>
      simp only
      cases redeal cr i l.walk with
      | none => rfl
      | some w => rfl
  | more => rfl
  | panic => exact absurd hr (sample_no_panic _ _)

theorem McReady.step_start (h : McReady ranges b d s) {l : McLocal} (g : McShared) (ho : Outside s.combinedRanges l.walk) (hpc : l.pc = .start) :
    mcStep sqrt target s l g =
      bindD (attempts s 1000 l.walk) fun p => retD ({ l with walk := p.2, pc := if p.1 then .eval else .final }, g) := by
  funext ds
  have hnp := (attempts_spec s h.crsOk.1 1000 l.walk ds ho).1
  unfold mcStep bindD
  rw [hpc]
  simp only [randomizeHoleCards]
  cases hr : attempts s 1000 l.walk ds with
  | ok a rest => rfl
  | more => rfl
  | panic => exact absurd hr hnp

theorem McReady.step_restart (h : McReady ranges b d s) {l : McLocal} (g : McShared) (ho : Outside s.combinedRanges l.walk) (hpc : l.pc = .restart) :
    mcStep sqrt target s l g =
      bindD (attempts s 1000 l.walk) fun p => retD ({ l with walk := p.2, pc := if p.1 then .move else .final }, g) := by
  funext ds
  have hnp := (attempts_spec s h.crsOk.1 1000 l.walk ds ho).1
  unfold mcStep bindD
  rw [hpc]
  simp only [randomizeHoleCards]
  cases hr : attempts s 1000 l.walk ds with
  | ok a rest => rfl
  | more => rfl
  | panic => exact absurd hr hnp

theorem step_flush {l : McLocal} (g : McShared) (hpc : l.pc = .flush) : mcStep sqrt target s l g =
    retD ({ l with pc := .check, stats := Batch.init s.nPlayers, hands := HandStats.init }, g.update sqrt target s false l) := by
  funext ds
  unfold mcStep
  rw [hpc]
  rfl

theorem step_check {l : McLocal} (g : McShared) (hpc : l.pc = .check) : mcStep sqrt target s l g =
    retD ({ l with pc := if g.stopped then .final else .restart }, g) := by
  funext ds
  unfold mcStep
  rw [hpc]
  rfl

theorem step_final {l : McLocal} (g : McShared) (hpc : l.pc = .final) : mcStep sqrt target s l g =
    retD ({ l with pc := .done }, g.update sqrt target s true l) := by
  funext ds
  unfold mcStep
  rw [hpc]
  rfl

theorem step_done {l : McLocal} (g : McShared) (hpc : l.pc = .done) : mcStep sqrt target s l g = retD (l, g) := by
  funext ds
  unfold mcStep
  rw [hpc]
  rfl

/-- The redeal of a combined range. -/
theorem McReady.moved_stands (h : McReady ranges b d s) {l : McLocal} {x : List Nat} (hx : Stands s b d x l.walk) {i : Nat} (hi : i < s.combinedRanges.length) :
    ∃ w, moved s l i = { l with walk := w, pc := .eval } ∧ Stands s b d (nextIdx s.combinedRanges (b ||| d) x i) w := by
  obtain ⟨picks, hw⟩ := hx.ok
  obtain ⟨w', c, e1, e2, e3, e4⟩ := redeal_spec h.crsOk.1 hw hi
  refine ⟨w', ?_, ⟨_, e3⟩, e4 hx.outside, nextIdx_points h.crsOk.1 hw hx.points hx.length hi e1, by rw [nextIdx_length, hx.length]⟩
  unfold moved
  rw [List.getElem?_eq_getElem hi]
  simp only [e1]

/-- The cards that are free for the board. -/
theorem McReady.openCards_eq (h : McReady ranges b d s) {x : List Nat} {w : Walk} (hx : Stands s b d x w) :
    openCards (w.used ||| s.deadMask) = (List.range 52).filter fun c => decide (c ∉ maskCards b ++ maskCards d ++ dealt (dealAt s x)) := by
  obtain ⟨picks, hw⟩ := hx.ok
  obtain ⟨hat, _⟩ := h.atDealAt hw hx.outside hx.points hx.length
  refine List.filter_congr fun c hc => ?_
  have := used_iff h hat (List.mem_range.1 hc)
  rw [Bool.eq_iff_iff, Bool.not_eq_true', decide_eq_true_iff, ← this, Bool.not_eq_true]

/-- There are enough free cards for the board. -/
theorem McReady.enough (h : McReady ranges b d s) {x : List Nat} {w : Walk} (hx : Stands s b d x w) :
    5 - (maskCards b).length ≤ (openCards (w.used ||| s.deadMask)).length := by
  obtain ⟨picks, hw⟩ := hx.ok
  obtain ⟨hat, hdd⟩ := h.atDealAt hw hx.outside hx.points hx.length
  obtain ⟨T, t1, t2, t3⟩ := h.free hdd
  rw [h.openCards_eq hx, ← t1]
  refine (t2.subperm fun c hc => ?_).length_le
  rw [List.mem_filter, List.mem_range, decide_eq_true_iff]
  exact t3 c hc

theorem McReady.expect_board (h : McReady ranges b d s) {x : List Nat} {w : Walk} (hx : Stands s b d x w) (χ : Hand → ℝ≥0∞) :
    expect (randomizeBoard (5 - (maskCards b).length) (w.used ||| s.deadMask) (ofCards (maskCards b))) χ =
      average (boards (maskCards b) (maskCards d) (dealAt s x)) fun B => χ (ofCards B) := by
  rw [expect_randomizeBoard χ _ _ _ (h.enough hx), h.openCards_eq hx]
  unfold boards completions
  rw [average_map]

/-- What an evaluation adds. -/
theorem McReady.evaluated_full (h : McReady ranges b d s) {l : McLocal} {x : List Nat} (hx : Stands s b d x l.walk) {B : List Nat}
    (hB : B ∈ boards (maskCards b) (maskCards d) (dealAt s x)) :
    full ((evaluated s l (ofCards B)).stats, (evaluated s l (ofCards B)).hands) = full (l.stats, l.hands) + showFull (dealAt s x, B) := by
  obtain ⟨picks, hw⟩ := hx.ok
  obtain ⟨hat, hdd⟩ := h.atDealAt hw hx.outside hx.points hx.length
  have h1 := (C43_boards h hat hB hB).2
  unfold boardSequences at h1
  rw [List.countP_pos_iff] at h1
  obtain ⟨ds, _, h1⟩ := h1
  have h1 := @of_decide_eq_true _ (_) h1
  obtain ⟨l', g1, g2, _⟩ := h.evalDeal_board hdd hat hB h1
  obtain ⟨_, _, _, f4, _, _, _, h5, _, h6⟩ := h.fields
  have hcount : s.fixedBoard.count = (maskCards b).length := by rw [f4, ← fixedBoard_eq, fixedBoard_count h5]
  have hsub : subC 5 s.fixedBoard.count = some (5 - s.fixedBoard.count) := by
    unfold subC; rw [hcount, if_pos h6]
  unfold Pokers.evalDeal at g1
  rw [hsub] at g1
  simp only [h1] at g1
  injection g1 with g1 _
  rw [← g1] at g2
  exact g2

/-! ## Threads that can go on -/

/-- A thread that has not panicked. -/
structure Good (s : Sim) (b d : Nat) (l : McLocal) : Prop where
  outside : Outside s.combinedRanges l.walk
  stands : l.pc = .eval ∨ l.pc = .move → ∃ x, Stands s b d x l.walk
  calm : l.pc ≠ .panicked
  ids : IdPlayers s.nPlayers l.stats

theorem attempts_stands (h : McReady ranges b d s) {k : Nat} {w w' : Walk} (ho : Outside s.combinedRanges w) {ds r : Draws} {a : Bool}
    (e : attempts s k w ds = .ok (a, w') r) : Outside s.combinedRanges w' ∧ (a = true → ∃ x, Stands s b d x w') := by
  obtain ⟨h1, h2⟩ := (attempts_spec s h.crsOk.1 k w ds ho).2 _ _ _ e
  refine ⟨h1, fun ha => ?_⟩
  obtain ⟨picks, hp⟩ := h2 ha
  rw [h.fields.2.1, h.fields.2.2.1] at hp
  exact ⟨walkIdx s w', ⟨picks, hp⟩, h1, walkIdx_points s _, walkIdx_length s _⟩

theorem evaluated_ids {l : McLocal} (h : IdPlayers s.nPlayers l.stats) (board : Hand) : IdPlayers s.nPlayers (evaluated s l board).stats := by
  intro j hj
  show (evaluateHands s.nPlayers l.walk.hands l.walk.weight board l.walk.lookup true (l.stats, l.hands)).1.playerIds j = j
  rw [(evaluateHands_rest s.nPlayers l.walk.hands l.walk.weight board l.walk.lookup true (l.stats, l.hands)).1]
  exact h j hj

/-- A step of a thread that has not panicked. -/
theorem McReady.good_step (h : McReady ranges b d s) {l : McLocal} (hl : Good s b d l) (g : McShared) :
    Reads (mcStep sqrt target s l g) ∧ CanEnd (mcStep sqrt target s l g) ∧ ∀ q y, mcStep sqrt target s l g q = .ok y [] → Good s b d y.1 := by
  cases hpc : l.pc with
  | start =>
    rw [h.step_start g hl.outside hpc]
    refine ⟨(attempts_reads s _ _).bind fun _ _ _ _ => Reads.ret _,
      CanEnd.bind (attempts_reads s _ _) (attempts_ends s h.drawable _ _) fun _ _ _ => CanEnd.ret _, fun q y e => ?_⟩
    unfold bindD at e
    cases hr : attempts s 1000 l.walk q with
    | ok p rest =>
      rw [hr] at e
      injection e with e _
      subst e
      obtain ⟨g1, g2⟩ := attempts_stands h hl.outside (a := p.1) (w' := p.2) hr
      refine ⟨g1, fun hp => ?_, ?_, ?_⟩
      · cases hp1 : p.1 with
        | true => exact g2 hp1
        | false => simp [hp1] at hp
      · cases p.1 <;> simp
      · exact hl.ids
    | more => rw [hr] at e; cases e
    | panic => rw [hr] at e; cases e
  | restart =>
    rw [h.step_restart g hl.outside hpc]
    refine ⟨(attempts_reads s _ _).bind fun _ _ _ _ => Reads.ret _,
      CanEnd.bind (attempts_reads s _ _) (attempts_ends s h.drawable _ _) fun _ _ _ => CanEnd.ret _, fun q y e => ?_⟩
    unfold bindD at e
    cases hr : attempts s 1000 l.walk q with
    | ok p rest =>
      rw [hr] at e
      injection e with e _
      subst e
      obtain ⟨g1, g2⟩ := attempts_stands h hl.outside (a := p.1) (w' := p.2) hr
      refine ⟨g1, fun hp => ?_, ?_, ?_⟩
      · cases hp1 : p.1 with
        | true => exact g2 hp1
        | false => simp [hp1] at hp
      · cases p.1 <;> simp
      · exact hl.ids
    | more => rw [hr] at e; cases e
    | panic => rw [hr] at e; cases e
  | eval =>
    obtain ⟨x, hx⟩ := hl.stands (Or.inl hpc)
    rw [h.step_eval g hpc]
    refine ⟨(randomizeBoard_reads _ _ _).bind fun _ _ _ _ => Reads.ret _,
      CanEnd.bind (randomizeBoard_reads _ _ _) (randomizeBoard_ends _ _ _ (h.enough hx)) fun _ _ _ => CanEnd.ret _, fun q y e => ?_⟩
    unfold bindD at e
    cases hr : randomizeBoard (5 - (maskCards b).length) (l.walk.used ||| s.deadMask) (ofCards (maskCards b)) q with
    | ok p rest =>
      rw [hr] at e
      injection e with e _
      subst e
      refine ⟨hl.outside, fun _ => ⟨x, hx⟩, ?_, evaluated_ids hl.ids p⟩
      show (if _ then McPc.flush else McPc.move) ≠ _
      split <;> simp
    | more => rw [hr] at e; cases e
    | panic => rw [hr] at e; cases e
  | move =>
    obtain ⟨x, hx⟩ := hl.stands (Or.inr hpc)
    rw [step_move g hpc]
    refine ⟨(sample_reads _).bind fun _ _ _ _ => Reads.ret _,
      CanEnd.bind (sample_reads _) (sample_ends h.nonempty) fun _ _ _ => CanEnd.ret _, fun q y e => ?_⟩
    unfold bindD at e
    cases hr : sample s.combinedRanges.length q with
    | ok i rest =>
      rw [hr] at e
      injection e with e _
      subst e
      obtain ⟨w, e1, e2⟩ := h.moved_stands hx (sample_ok hr).1
      show Good s b d (moved s l i)
      rw [e1]
      exact ⟨e2.outside, fun _ => ⟨_, e2⟩, by simp, hl.ids⟩
    | more => rw [hr] at e; cases e
    | panic => rw [hr] at e; cases e
  | flush =>
    rw [step_flush g hpc]
    refine ⟨Reads.ret _, CanEnd.ret _, fun q y e => ?_⟩
    injection e with e _
    subst e
    exact ⟨hl.outside, by simp, by simp, batchInit_ids _⟩
  | check =>
    rw [step_check g hpc]
    refine ⟨Reads.ret _, CanEnd.ret _, fun q y e => ?_⟩
    injection e with e _
    subst e
    refine ⟨hl.outside, fun hp => ?_, ?_, hl.ids⟩
    · cases hg : g.stopped <;> simp [hg] at hp
    · cases g.stopped <;> simp
  | final =>
    rw [step_final g hpc]
    refine ⟨Reads.ret _, CanEnd.ret _, fun q y e => ?_⟩
    injection e with e _
    subst e
    exact ⟨hl.outside, by simp, by simp, hl.ids⟩
  | done =>
    rw [step_done g hpc]
    refine ⟨Reads.ret _, CanEnd.ret _, fun q y e => ?_⟩
    injection e with e _
    subst e
    exact hl
  | panicked => exact absurd hpc hl.calm

/-! ## A thread by itself -/

/-- What a step hands over to the shared results. -/
def flushed (s : Sim) (l : McLocal) : FT := if l.pc = .flush ∨ l.pc = .final then trunc s.nPlayers (full (l.stats, l.hands)) else 0

/-- A step of a thread that keeps an account of what it hands over; nobody stops it. -/
def soloStep (s : Sim) (g0 : McShared) (x : McLocal × FT) : Draws → Out (McLocal × FT) :=
  bindD (mcStep id 0 s x.1 g0) fun y => retD (y.1, x.2 + flushed s x.1)

/-- A number of steps of a thread. -/
def solo (s : Sim) (g0 : McShared) : Nat → McLocal × FT → Draws → Out (McLocal × FT)
  | 0, x => retD x
  | n + 1, x => bindD (soloStep s g0 x) (solo s g0 n)

/-- The shared state after a step. -/
def sharedAfter (sqrt : ℚ → ℚ) (target : ℚ) (s : Sim) (l : McLocal) (g : McShared) : McShared :=
  match l.pc with
  | .flush => g.update sqrt target s false l
  | .final => g.update sqrt target s true l
  | _ => g

/-- What a thread does depends on the shared state only by the flag. -/
theorem step_solo_of {g g0 : McShared} (l : McLocal) (hg : l.pc = .check → g.stopped = g0.stopped) : mcStep sqrt target s l g =
    bindD (mcStep id 0 s l g0) fun y => retD (y.1, sharedAfter sqrt target s l g) := by
  funext ds
  unfold mcStep bindD sharedAfter
  cases hpc : l.pc with
  | start => simp only; cases randomizeHoleCards s l.walk ds <;> rfl
  | eval => simp only; cases Pokers.evalDeal s l ds <;> rfl
  | flush => rfl
  | check => simp only [hg hpc]; rfl
  | restart => simp only; cases randomizeHoleCards s l.walk ds <;> rfl
  | move =>
    simp only
    cases sample s.combinedRanges.length ds with
    | ok i rest =>
      simp only
      cases s.combinedRanges[i]? with
      | none => rfl
      | some cr => simp only; cases redeal cr i l.walk <;> rfl
    | more => rfl
    | panic => rfl
  | final => rfl
  | done => rfl
  | panicked => rfl

theorem step_solo {g g0 : McShared} (hg : g.stopped = g0.stopped) (l : McLocal) : mcStep sqrt target s l g =
    bindD (mcStep id 0 s l g0) fun y => retD (y.1, sharedAfter sqrt target s l g) := step_solo_of l fun _ => hg

variable {g0 : McShared}

theorem McReady.solo_step (h : McReady ranges b d s) {x : McLocal × FT} (hl : Good s b d x.1) :
    Reads (soloStep s g0 x) ∧ CanEnd (soloStep s g0 x) ∧ ∀ q y, soloStep s g0 x q = .ok y [] → Good s b d y.1 := by
  obtain ⟨h1, h2, h3⟩ := h.good_step (sqrt := id) (target := 0) hl g0
  refine ⟨h1.bind fun _ _ _ _ => Reads.ret _, CanEnd.bind h1 h2 fun _ _ _ => CanEnd.ret _, fun q y e => ?_⟩
  obtain ⟨a, r, e1, e2⟩ := bindD_ok e
  injection e2 with e2 e3
  subst e3
  rw [← e2]
  exact h3 q a e1

theorem McReady.solo_ends (h : McReady ranges b d s) : ∀ (n : Nat) (x : McLocal × FT), Good s b d x.1 →
    Reads (solo s g0 n x) ∧ CanEnd (solo s g0 n x) ∧ ∀ q y, solo s g0 n x q = .ok y [] → Good s b d y.1
  | 0, x, hx => ⟨Reads.ret x, CanEnd.ret x, fun q y e => by injection e with e _; rw [← e]; exact hx⟩
  | n + 1, x, hx => by
    obtain ⟨h1, h2, h3⟩ := h.solo_step (g0 := g0) hx
    refine ⟨h1.bind fun q a r e => ?_, CanEnd.bind h1 h2 fun q z e => (h.solo_ends n z (h3 q z e)).2.1, fun q y e => ?_⟩
    · obtain ⟨p, e1, e2⟩ := h1 q a r e
      have := e2 []
      rw [List.append_nil] at this
      exact (h.solo_ends n a (h3 p a this)).1
    · obtain ⟨a, r, e1, e2⟩ := bindD_ok e
      obtain ⟨p, e3, e4⟩ := h1 q a r e1
      have := e4 []
      rw [List.append_nil] at this
      exact (h.solo_ends n a (h3 p a this)).2.2 r y e2

/-- The steps one after the other. -/
theorem McReady.expect_succ (h : McReady ranges b d s) (n : Nat) {l : McLocal} {F : FT} (hl : Good s b d l) (Φ : McLocal × FT → ℝ≥0∞) :
    expect (solo s g0 (n + 1) (l, F)) Φ = expect (mcStep id 0 s l g0) fun y => expect (solo s g0 n (y.1, F + flushed s l)) Φ := by
  obtain ⟨h1, h2, h3⟩ := h.solo_step (g0 := g0) (x := (l, F)) hl
  obtain ⟨g1, g2, g3⟩ := h.good_step (sqrt := id) (target := 0) hl g0
  refine (expect_bind h1 (fun q z e => (h.solo_ends n z (h3 q z e)).2.1) Φ).trans ?_
  refine (expect_bind g1 (fun _ _ _ => CanEnd.ret _) _).trans ?_
  refine expect_congr fun q a _ => ?_
  rw [expect_ret]

theorem McReady.expect_solo_add (h : McReady ranges b d s) (m : Nat) (Φ : McLocal × FT → ℝ≥0∞) : ∀ (n : Nat) {l : McLocal} {F : FT}, Good s b d l →
    expect (solo s g0 (n + m) (l, F)) Φ = expect (solo s g0 n (l, F)) fun y => expect (solo s g0 m y) Φ
  | 0, l, F, hl => by
    rw [Nat.zero_add]
    exact (expect_ret (l, F) fun y => expect (solo s g0 m y) Φ).symm
  | n + 1, l, F, hl => by
    rw [show n + 1 + m = (n + m) + 1 by omega, h.expect_succ _ hl, h.expect_succ _ hl]
    refine expect_congr fun q a e => ?_
    exact h.expect_solo_add m Φ n ((h.good_step (sqrt := id) (target := 0) hl g0).2.2 q a e)

/-! ## The steps of a batch -/

theorem McReady.expect_eval (h : McReady ranges b d s) (n : Nat) {l : McLocal} {F : FT} (hl : Good s b d l) (hpc : l.pc = .eval) {x : List Nat}
    (hx : Stands s b d x l.walk) (Φ : McLocal × FT → ℝ≥0∞) :
    expect (solo s g0 (n + 1) (l, F)) Φ = average (boards (maskCards b) (maskCards d) (dealAt s x)) fun B =>
      expect (solo s g0 n ({ evaluated s l (ofCards B) with pc := if (evaluated s l (ofCards B)).stats.evalCount &&& 0xfff = 0 then .flush else .move }, F)) Φ := by
  rw [h.expect_succ n hl, h.step_eval g0 hpc, expect_bind (randomizeBoard_reads _ _ _) (fun _ _ _ => CanEnd.ret _), h.expect_board hx]
  refine average_congr fun B _ => ?_
  rw [expect_ret]
  have : flushed s l = 0 := by unfold flushed; rw [hpc]; simp
  rw [this, add_zero]

theorem McReady.expect_move (h : McReady ranges b d s) (n : Nat) {l : McLocal} {F : FT} (hl : Good s b d l) (hpc : l.pc = .move) (Φ : McLocal × FT → ℝ≥0∞) :
    expect (solo s g0 (n + 1) (l, F)) Φ = average (List.range s.combinedRanges.length) fun i => expect (solo s g0 n (moved s l i, F)) Φ := by
  rw [h.expect_succ n hl, step_move g0 hpc, expect_bind (sample_reads _) (fun _ _ _ => CanEnd.ret _), expect_sample]
  have : flushed s l = 0 := by unfold flushed; rw [hpc]; simp
  have e : ∀ i ∈ List.range s.combinedRanges.length, (expect (retD (moved s l i, g0)) fun y => expect (solo s g0 n (y.1, F + flushed s l)) Φ) =
      expect (solo s g0 n (moved s l i, F)) Φ := fun i _ => by rw [expect_ret, this, add_zero]
  rw [← average_congr e]
  unfold average
  rw [List.length_range]
  rfl

/-- From an evaluation on, until the batch is full. -/
theorem McReady.expect_fill (h : McReady ranges b d s) {F : FT} {Φ : McLocal × FT → ℝ≥0∞} {ψ : FT → ℝ≥0∞}
    (hΦ : ∀ l', Good s b d l' → l'.pc = .flush → Φ (l', F) = ψ (full (l'.stats, l'.hands))) :
    ∀ (k : Nat) {l : McLocal} {x : List Nat}, Good s b d l → l.pc = .eval → Stands s b d x l.walk → l.stats.evalCount + k + 1 = 4096 →
    expect (solo s g0 (2 * k + 1) (l, F)) Φ =
      average (choices (List.replicate k (List.range s.combinedRanges.length))) fun mv =>
        average (outcomes (maskCards b) (maskCards d) ((visited s.combinedRanges (b ||| d) x mv).map (dealAt s))) fun sd =>
          ψ (full (l.stats, l.hands) + showsFull sd)
  | 0, l, x, hl, hpc, hx, hk => by
    rw [Nat.mul_zero, h.expect_eval 0 hl hpc hx]
    have e1 : (average (choices (List.replicate 0 (List.range s.combinedRanges.length))) fun mv =>
        average (outcomes (maskCards b) (maskCards d) ((visited s.combinedRanges (b ||| d) x mv).map (dealAt s))) fun sd =>
          ψ (full (l.stats, l.hands) + showsFull sd)) =
        average (outcomes (maskCards b) (maskCards d) [dealAt s x]) fun sd => ψ (full (l.stats, l.hands) + showsFull sd) := by
      show average [[]] _ = _
      unfold average
      simp [visited]
    rw [e1, average_outcomes]
    refine average_congr fun B hB => ?_
    have hf := h.evaluated_full hx hB
    have hc : (evaluated s l (ofCards B)).stats.evalCount = l.stats.evalCount + 1 := congrArg Prod.snd hf
    have e2 : (average (outcomes (maskCards b) (maskCards d) []) fun sd => ψ (full (l.stats, l.hands) + showsFull ((dealAt s x, B) :: sd))) =
        ψ (full (l.stats, l.hands) + showsFull [(dealAt s x, B)]) := by
      show average [[]] _ = _
      unfold average
      simp
    rw [e2, and_fff, hc, if_pos (by omega)]
    refine (expect_ret _ _).trans ?_
    have hG : Good s b d { evaluated s l (ofCards B) with pc := .flush } := ⟨hl.outside, by simp, by simp, evaluated_ids hl.ids _⟩
    refine (hΦ _ hG rfl).trans ?_
    show ψ (full ((evaluated s l (ofCards B)).stats, (evaluated s l (ofCards B)).hands)) = _
    rw [hf, showsFull_single]
  | k + 1, l, x, hl, hpc, hx, hk => by
    rw [show 2 * (k + 1) + 1 = ((2 * k + 1) + 1) + 1 by ring, h.expect_eval _ hl hpc hx]
    have e1 : ∀ B ∈ boards (maskCards b) (maskCards d) (dealAt s x),
        expect (solo s g0 (2 * k + 1 + 1) ({ evaluated s l (ofCards B) with
          pc := if (evaluated s l (ofCards B)).stats.evalCount &&& 0xfff = 0 then .flush else .move }, F)) Φ =
        average (List.range s.combinedRanges.length) fun i =>
          average (choices (List.replicate k (List.range s.combinedRanges.length))) fun mv =>
            average (outcomes (maskCards b) (maskCards d) ((visited s.combinedRanges (b ||| d) (nextIdx s.combinedRanges (b ||| d) x i) mv).map (dealAt s)))
              fun sd => ψ (full (l.stats, l.hands) + showsFull ((dealAt s x, B) :: sd)) := fun B hB => by
      have hf := h.evaluated_full hx hB
      have hc : (evaluated s l (ofCards B)).stats.evalCount = l.stats.evalCount + 1 := congrArg Prod.snd hf
      rw [and_fff, hc, if_neg (by omega)]
      have hG : Good s b d { evaluated s l (ofCards B) with pc := .move } := ⟨hl.outside, fun _ => ⟨x, hx⟩, by simp, evaluated_ids hl.ids _⟩
      rw [h.expect_move _ hG rfl]
      refine average_congr fun i hi => ?_
      have hx' : Stands s b d x ({ evaluated s l (ofCards B) with pc := .move } : McLocal).walk := hx
      obtain ⟨w, m1, m2⟩ := h.moved_stands hx' (List.mem_range.1 hi)
      have hG2 : Good s b d { evaluated s l (ofCards B) with walk := w, pc := .eval } :=
        ⟨m2.outside, fun _ => ⟨_, m2⟩, by simp, evaluated_ids hl.ids _⟩
      have hk2 : ({ evaluated s l (ofCards B) with walk := w, pc := .eval } : McLocal).stats.evalCount + k + 1 = 4096 := by
        show (evaluated s l (ofCards B)).stats.evalCount + k + 1 = 4096
        omega
      rw [m1]
      refine (h.expect_fill hΦ k (x := nextIdx s.combinedRanges (b ||| d) x i) hG2 rfl m2 hk2).trans ?_
      refine average_congr fun mv _ => average_congr fun sd _ => ?_
      show ψ (full ((evaluated s l (ofCards B)).stats, (evaluated s l (ofCards B)).hands) + showsFull sd) = _
      rw [hf, ← List.singleton_append, showsFull_append, showsFull_single, add_assoc]
    rw [average_congr e1, List.replicate_succ, average_choices, average_comm]
    refine average_congr fun i _ => ?_
    rw [average_comm]
    refine average_congr fun mv _ => ?_
    exact (average_outcomes _ _ (dealAt s x) _ fun sd => ψ (full (l.stats, l.hands) + showsFull sd)).symm

/-! ## A batch -/

theorem geometric {a m : ℝ≥0∞} (h : a + m = 1) : ∀ k : Nat, (∑ i ∈ Finset.range k, m ^ i) * a + m ^ k = 1
  | 0 => by simp
  | k + 1 => by
    rw [Finset.sum_range_succ, add_mul, pow_succ, add_assoc, ← mul_add, h, mul_one]
    exact geometric h k

/-- The first deal is one of the legal ones, each with the same probability. -/
theorem McReady.expect_deal (h : McReady ranges b d s) {Φ : Bool × Walk → ℝ≥0∞} {f : List Nat → ℝ≥0∞}
    (h1 : ∀ w', Outside s.combinedRanges w' → Φ (false, w') = 0)
    (h2 : ∀ w' x, Stands s b d x w' → x ∈ legalIdxs s.combinedRanges (b ||| d) → Φ (true, w') = f x) (k : Nat) {w : Walk} (ho : Outside s.combinedRanges w) :
    expect (attempts s k w) Φ = (1 - misses s.combinedRanges (b ||| d) ^ k) * average (legalIdxs s.combinedRanges (b ||| d)) f := by
  rw [expect_attempts h h1 (fun w' picks x g1 g2 g3 g4 g5 => h2 w' x ⟨⟨picks, g1⟩, g2, g3, g4⟩ g5) k w ho, mul_zero, add_zero]
  have hm := misses_add s.combinedRanges (b ||| d) h.drawable
  have hg := geometric hm k
  have hle : misses s.combinedRanges (b ||| d) ^ k ≠ ⊤ := by
    refine ne_top_of_le_ne_top ENNReal.one_ne_top ?_
    rw [← hg]
    exact le_add_self
  rw [← ENNReal.eq_sub_of_add_eq hle hg]
  unfold average
  rcases Nat.eq_zero_or_pos (legalIdxs s.combinedRanges (b ||| d)).length with h0 | h0
  · rw [List.length_eq_zero_iff.1 h0]
    simp
  · have hc : ((legalIdxs s.combinedRanges (b ||| d)).length : ℝ≥0∞) * ((legalIdxs s.combinedRanges (b ||| d)).length : ℝ≥0∞)⁻¹ = 1 :=
      ENNReal.mul_inv_cancel (by exact_mod_cast h0.ne') (ENNReal.natCast_ne_top _)
    rw [mul_assoc, mul_assoc, ← mul_assoc ((legalIdxs s.combinedRanges (b ||| d)).length : ℝ≥0∞), hc, one_mul]

/-- There is always a board. -/
theorem McReady.boards_ne (h : McReady ranges b d s) {dd : List WHand} (hdd : dd ∈ deals (specRanges ranges) (maskCards b ++ maskCards d)) :
    boards (maskCards b) (maskCards d) dd ≠ [] := by
  obtain ⟨T, t1, t2, t3⟩ := h.free hdd
  unfold boards completions
  intro e
  rw [List.map_eq_nil_iff, ← List.length_eq_zero_iff, List.length_sublistsLen, Nat.choose_eq_zero_iff] at e
  refine absurd e (not_lt.2 ?_)
  rw [← t1]
  refine (t2.subperm fun c hc => ?_).length_le
  rw [List.mem_filter, List.mem_range, decide_eq_true_iff]
  exact t3 c hc

/-- An average over all batches. -/
theorem McReady.average_batches (h : McReady ranges b d s) (f : List (List WHand × List Nat) → ℝ≥0∞) : average (batchSpace s b d) f =
    average (legalIdxs s.combinedRanges (b ||| d)) fun x => average (moveLists s) fun mv => average (outcomes (maskCards b) (maskCards d) (trackDeals s b d x mv)) f := by
  by_cases hne : deals (specRanges ranges) (maskCards b ++ maskCards d) = []
  · have : legalIdxs s.combinedRanges (b ||| d) = [] := by
      have := h.dealAt_perm.length_eq
      rw [List.length_map, hne] at this
      exact List.length_eq_zero_iff.1 this
    unfold batchSpace pathSpace
    rw [this]
    rfl
  · have hB := h.balanced hne fun dd hdd => h.boards_ne hdd
    unfold batchSpace pathSpace
    rw [average_bind (n := (moveLists s).length * boardCount ranges b d ^ 4096)]
    · refine average_congr fun x hx => ?_
      rw [average_bind (n := boardCount ranges b d ^ 4096)]
      exact fun mv hmv => hB.outcomes_length hx hmv
    · intro x hx
      rw [List.length_flatMap, List.map_congr_left fun mv hmv => hB.outcomes_length hx hmv, List.map_const', List.sum_replicate, smul_eq_mul]

/-- The counters of a thread are empty. -/
def Unused (s : Sim) (l : McLocal) : Prop := l.stats = Batch.init s.nPlayers ∧ l.hands = HandStats.init

theorem Unused.full {l : McLocal} (h : Unused s l) : full (l.stats, l.hands) = 0 := by
  rw [h.1, h.2]
  rfl

/-- A thread that has ended stays where it is. -/
theorem McReady.expect_done (h : McReady ranges b d s) {Φ : McLocal × FT → ℝ≥0∞} (hΦ : ∀ l F, Good s b d l → l.pc = .done → Φ (l, F) = 0) :
    ∀ (n : Nat) {l : McLocal} {F : FT}, Good s b d l → l.pc = .done → expect (solo s g0 n (l, F)) Φ = 0
  | 0, l, F, hl, hpc => (expect_ret _ _).trans (hΦ l F hl hpc)
  | n + 1, l, F, hl, hpc => by
    rw [h.expect_succ n hl, step_done g0 hpc, expect_ret]
    exact h.expect_done hΦ n hl hpc

theorem McReady.expect_final (h : McReady ranges b d s) {Φ : McLocal × FT → ℝ≥0∞} (hΦ : ∀ l F, Good s b d l → l.pc = .done → Φ (l, F) = 0)
    (n : Nat) {l : McLocal} {F : FT} (hl : Good s b d l) (hpc : l.pc = .final) : expect (solo s g0 (n + 1) (l, F)) Φ = 0 := by
  rw [h.expect_succ n hl, step_final g0 hpc, expect_ret]
  exact h.expect_done hΦ n ⟨hl.outside, by simp, by simp, hl.ids⟩ rfl

/-- The steps to the end of a batch and the update of the results. -/
theorem McReady.expect_full (h : McReady ranges b d s) {F : FT} {Φ : McLocal × FT → ℝ≥0∞} {ψ : FT → ℝ≥0∞}
    (hΦ : ∀ l' F', Good s b d l' → Unused s l' → l'.pc = .check → Φ (l', F') = ψ F') {l : McLocal} {x : List Nat} (hl : Good s b d l) (hpc : l.pc = .eval)
    (hx : Stands s b d x l.walk) (hf : Unused s l) : expect (solo s g0 8192 (l, F)) Φ =
      average (moveLists s) fun mv => average (outcomes (maskCards b) (maskCards d) (trackDeals s b d x mv)) fun sd =>
        ψ (F + trunc s.nPlayers (showsFull sd)) := by
  rw [show 8192 = (2 * 4095 + 1) + 1 by norm_num, h.expect_solo_add 1 Φ _ hl,
    h.expect_fill (ψ := fun T => ψ (F + trunc s.nPlayers T)) (fun l' g1 g2 => ?_) 4095 hl hpc hx (by rw [hf.1]; rfl)]
  · rw [hf.full]
    simp only [zero_add]
    rfl
  · rw [h.expect_succ 0 g1, step_flush g0 g2, expect_ret]
    refine (expect_ret _ _).trans ?_
    have e : flushed s l' = trunc s.nPlayers (full (l'.stats, l'.hands)) := by unfold flushed; rw [g2]; simp
    rw [e]
    exact hΦ _ _ ⟨g1.outside, by simp, by simp, batchInit_ids _⟩ ⟨rfl, rfl⟩ rfl

/-- The first batch of a thread. -/
theorem McReady.expect_first (h : McReady ranges b d s) {F : FT} {Φ : McLocal × FT → ℝ≥0∞} {ψ : FT → ℝ≥0∞}
    (hΦ : ∀ l' F', Good s b d l' → Unused s l' → l'.pc = .check → Φ (l', F') = ψ F') (h0 : ∀ l F, Good s b d l → l.pc = .done → Φ (l, F) = 0)
    {l : McLocal} (hl : Good s b d l) (hpc : l.pc = .start) (hf : Unused s l) : expect (solo s g0 8193 (l, F)) Φ =
      (1 - misses s.combinedRanges (b ||| d) ^ 1000) * average (batchSpace s b d) fun sd => ψ (F + trunc s.nPlayers (showsFull sd)) := by
  have e : flushed s l = 0 := by unfold flushed; rw [hpc]; simp
  rw [h.expect_succ 8192 hl, h.step_start g0 hl.outside hpc, expect_bind (attempts_reads s _ _) (fun _ _ _ => CanEnd.ret _), h.average_batches, e]
  refine h.expect_deal (fun w' hw' => ?_) (fun w' x hx _ => ?_) 1000 hl.outside
  · rw [expect_ret, add_zero]
    exact h.expect_final h0 8191 (l := { l with walk := w', pc := .final }) ⟨hw', by simp, by simp, hl.ids⟩ rfl
  · rw [expect_ret, add_zero]
    exact h.expect_full hΦ (l := { l with walk := w', pc := .eval }) ⟨hx.outside, fun _ => ⟨x, hx⟩, by simp, hl.ids⟩ rfl hx hf

/-- A later batch of a thread. -/
theorem McReady.expect_next (h : McReady ranges b d s) (hg : g0.stopped = false) {F : FT} {Φ : McLocal × FT → ℝ≥0∞} {ψ : FT → ℝ≥0∞}
    (hΦ : ∀ l' F', Good s b d l' → Unused s l' → l'.pc = .check → Φ (l', F') = ψ F') (h0 : ∀ l F, Good s b d l → l.pc = .done → Φ (l, F) = 0)
    {l : McLocal} (hl : Good s b d l) (hpc : l.pc = .check) (hf : Unused s l) : expect (solo s g0 8195 (l, F)) Φ =
      (1 - misses s.combinedRanges (b ||| d) ^ 1000) * average (batchSpace s b d) fun sd => ψ (F + trunc s.nPlayers (showsFull sd)) := by
  have e : flushed s l = 0 := by unfold flushed; rw [hpc]; simp
  rw [h.expect_succ 8194 hl, step_check g0 hpc, expect_ret, hg, e, add_zero]
  have hG : Good s b d { l with pc := .restart } := ⟨hl.outside, by simp, by simp, hl.ids⟩
  show expect (solo s g0 (8193 + 1) ({ l with pc := .restart }, F)) Φ = _
  have e2 : flushed s { l with pc := .restart } = 0 := by unfold flushed; simp
  rw [h.expect_succ 8193 hG, h.step_restart (l := { l with pc := .restart }) g0 hl.outside rfl, expect_bind (attempts_reads s _ _) (fun _ _ _ => CanEnd.ret _), h.average_batches, e2]
  refine (h.expect_deal (f := fun x => average (List.range s.combinedRanges.length) fun i => average (moveLists s) fun mv =>
    average (outcomes (maskCards b) (maskCards d) (trackDeals s b d (nextIdx s.combinedRanges (b ||| d) x i) mv)) fun sd =>
      ψ (F + trunc s.nPlayers (showsFull sd))) (fun w' hw' => ?_) (fun w' x hx _ => ?_) 1000 hl.outside).trans ?_
  · rw [expect_ret, add_zero]
    exact h.expect_final h0 8192 (l := { l with walk := w', pc := .final }) ⟨hw', by simp, by simp, hl.ids⟩ rfl
  · rw [expect_ret, add_zero]
    have hG2 : Good s b d { l with walk := w', pc := .move } := ⟨hx.outside, fun _ => ⟨x, hx⟩, by simp, hl.ids⟩
    refine (h.expect_move 8192 (l := { l with walk := w', pc := .move }) hG2 rfl Φ).trans ?_
    refine average_congr fun i hi => ?_
    obtain ⟨w2, m1, m2⟩ := h.moved_stands (l := { l with walk := w', pc := .move }) hx (List.mem_range.1 hi)
    rw [m1]
    exact h.expect_full hΦ (l := { l with walk := w2, pc := .eval }) ⟨m2.outside, fun _ => ⟨_, m2⟩, by simp, hl.ids⟩ rfl m2 hf
  · congr 1
    rw [average_comm]
    have : ∀ i ∈ List.range s.combinedRanges.length, (average (legalIdxs s.combinedRanges (b ||| d)) fun x => average (moveLists s) fun mv =>
        average (outcomes (maskCards b) (maskCards d) (trackDeals s b d (nextIdx s.combinedRanges (b ||| d) x i) mv)) fun sd =>
          ψ (F + trunc s.nPlayers (showsFull sd))) = average (legalIdxs s.combinedRanges (b ||| d)) fun x => average (moveLists s) fun mv =>
        average (outcomes (maskCards b) (maskCards d) (trackDeals s b d x mv)) fun sd => ψ (F + trunc s.nPlayers (showsFull sd)) := fun i hi => by
      rw [← average_perm (h.nextIdx_perm (List.mem_range.1 hi)) fun x => average (moveLists s) fun mv =>
        average (outcomes (maskCards b) (maskCards d) (trackDeals s b d x mv)) fun sd => ψ (F + trunc s.nPlayers (showsFull sd))]
      exact (average_map (legalIdxs s.combinedRanges (b ||| d)) (fun x => nextIdx s.combinedRanges (b ||| d) x i) fun x => average (moveLists s) fun mv =>
        average (outcomes (maskCards b) (maskCards d) (trackDeals s b d x mv)) fun sd => ψ (F + trunc s.nPlayers (showsFull sd))).symm
    rw [average_congr this, average_const]
    rw [← List.length_pos_iff, List.length_range]
    exact h.nonempty

end

end Pokers
